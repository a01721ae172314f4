import Verif.Spec.Patterns
import Verif.Props.Whole

/-!
# C127–C130: the paths of an artefact
-/

namespace Reqtrace
open Spec

theorem matched_append {env : Env} {w : World} {base : Path} (ps qs : List Str) (fs : List Path) :
    Matched env w base (ps ++ qs) fs ↔ ∃ f g, fs = f ++ g ∧ Matched env w base ps f ∧ Matched env w base qs g := by
  induction ps generalizing fs with
  | nil =>
    constructor
    · intro h; exact ⟨[], fs, rfl, .nil, h⟩
    · rintro ⟨f, g, rfl, h1, h2⟩; cases h1; exact h2
  | cons p ps ih =>
    constructor
    · intro h
      cases h with
      | cons h1 h2 =>
        obtain ⟨f, g, rfl, h3, h4⟩ := (ih _).1 h2
        exact ⟨_, g, (List.append_assoc ..).symm, .cons h1 h3, h4⟩
    · rintro ⟨f, g, rfl, h1, h2⟩
      cases h1 with
      | cons h3 h4 =>
        rw [List.append_assoc]
        exact .cons h3 ((ih _).2 ⟨_, g, rfl, h4, h2⟩)

theorem matched_unique {env : Env} {w : World} {base : Path} {ps : List Str} {fs gs : List Path}
    (h : Matched env w base ps fs) (h' : Matched env w base ps gs) : fs = gs := by
  have a := (globPaths_ok env w base _ _).2 h
  rw [(globPaths_ok env w base _ _).2 h'] at a
  cases a; rfl

/-- Either all patterns can be searched, or one of them cannot. -/
theorem matched_or {env : Env} {w : World} {base : Path} (ps : List Str) :
    (∃ fs, Matched env w base ps fs) ↔ ∀ p ∈ ps, ∃ fs, Finds env w base p fs := by
  induction ps with
  | nil => exact ⟨fun _ p hp => (by cases hp), fun _ => ⟨[], .nil⟩⟩
  | cons p ps ih =>
    constructor
    · rintro ⟨fs, h⟩
      cases h with
      | cons h1 h2 =>
        intro q hq
        rcases List.mem_cons.1 hq with rfl | hq
        · exact ⟨_, h1⟩
        · exact ih.1 ⟨_, h2⟩ q hq
    · intro h
      obtain ⟨f, hf⟩ := h p List.mem_cons_self
      obtain ⟨g, hg⟩ := ih.2 fun q hq => h q (List.mem_cons_of_mem _ hq)
      exact ⟨_, .cons hf hg⟩

/-- The result for a Rust artefact all of whose patterns can be searched. -/
theorem rust_parsed {env : Env} {w : World} {ac : ArtefactConfig} {base : Path} {fs files : List Path}
    {m : BMap RequirementId Requirement} {errs : List Error} (hr : ac.parser = .rust) (hne : ac.paths ≠ [])
    (hm : Matched env w base ac.paths fs) (h : parseFromConfig env w ac base = .ok (files, m, errs)) :
    files = fs ∧ (∀ id, m.get id = (fs.flatMap (requirementsIn env w .rust)).find? (fun r => r.id = id)) ∧
      errs = fs.flatMap (errorsIn env w .rust) ++ duplicates (fs.flatMap (requirementsIn env w .rust)) ∧
      ∀ p ∈ fs, ∃ u, oneFile env w .rust p = .ok u := by
  obtain ⟨reqs, perrs, h1, h2, rfl⟩ := C17_first_kept h
  obtain ⟨h3, h4⟩ := (parseArtefact_filesOf (.inl ⟨hr, hne, hm⟩) _).1 h1
  rw [hr] at h3 h4
  simp only [Prod.mk.injEq] at h4
  obtain ⟨rfl, rfl, rfl⟩ := h4
  exact ⟨rfl, h2, rfl, h3⟩

/-- The result for a Rust artefact one of whose patterns cannot be searched. -/
theorem rust_failed {env : Env} {w : World} {ac : ArtefactConfig} {base : Path} {files : List Path}
    {m : BMap RequirementId Requirement} {errs : List Error} (hr : ac.parser = .rust) (hne : ac.paths ≠ [])
    (hm : ¬ ∃ fs, Matched env w base ac.paths fs) (h : parseFromConfig env w ac base = .ok (files, m, errs)) :
    files = ac.paths ∧ (∀ id, m.get id = none) ∧ ∃ q e, errs = [.io q e] ∧
      globPaths env w base ac.paths = .error (.io q e) := by
  obtain ⟨reqs, perrs, h1, h2, rfl⟩ := C17_first_kept h
  have hpa : parseArtefact env w ac base = parseMultipleFiles env w ac base := by
    unfold parseArtefact; rw [hr]
  rw [hpa] at h1
  unfold parseMultipleFiles at h1
  rw [if_neg hne] at h1
  cases hg : globPaths env w base ac.paths with
  | ok fs => exact absurd ⟨fs, (globPaths_ok env w base _ _).1 hg⟩ hm
  | error x =>
    rw [hg] at h1
    cases h1
    obtain ⟨q, e, rfl⟩ := globPaths_error hg
    exact ⟨rfl, h2, q, e, rfl, rfl⟩

/-! ## C127 -/

/-- **C127 as listed**: a further path takes nothing away. -/
def C127_statement : Prop := ∀ (env : Env) (w : World) (ac : ArtefactConfig) (base : Path) (pre post : List Str) (p : Str)
    (files files' : List Path) (m m' : BMap RequirementId Requirement) (errs errs' : List Error),
  ac.parser = .rust → ac.paths = pre ++ p :: post → pre ++ post ≠ [] →
  parseFromConfig env w { ac with paths := pre ++ post } base = .ok (files, m, errs) →
  parseFromConfig env w ac base = .ok (files', m', errs') →
    (∀ id r, m.get id = some r → m'.get id = some r ∨ ∃ kept, .duplicateRequirement kept r ∈ errs') ∧
    ∀ e ∈ errs, ¬ AboutDuplicates e → e ∈ errs'

theorem mem_duplicates_about {reqs : List Requirement} {e : Error} (h : e ∈ duplicates reqs) : AboutDuplicates e := by
  unfold duplicates at h
  obtain ⟨i, _, h2⟩ := List.mem_filterMap.1 h
  split at h2
  · cases h2
  · obtain ⟨a, _, rfl⟩ := Option.map_eq_some_iff.1 h2
    exact ⟨_, _, rfl⟩

/-- **C127** if the path can be searched. -/
theorem C127_searched_partial {env : Env} {w : World} {ac : ArtefactConfig} {base : Path} {pre post : List Str} {p : Str}
    {files files' : List Path} {m m' : BMap RequirementId Requirement} {errs errs' : List Error}
    (hr : ac.parser = .rust) (hp : ac.paths = pre ++ p :: post) (hne : pre ++ post ≠ [])
    (h : parseFromConfig env w { ac with paths := pre ++ post } base = .ok (files, m, errs))
    (h' : parseFromConfig env w ac base = .ok (files', m', errs'))
    {fs : List Path} (hf : Finds env w base p fs) :
    (∀ id r, m.get id = some r → m'.get id = some r ∨ ∃ kept, .duplicateRequirement kept r ∈ errs') ∧
    ∀ e ∈ errs, ¬ AboutDuplicates e → e ∈ errs' := by
  have hne' : ac.paths ≠ [] := by rw [hp]; simp
  by_cases hm : ∃ gs, Matched env w base (pre ++ post) gs
  · obtain ⟨gs, hm⟩ := hm
    obtain ⟨f, g, rfl, h1, h2⟩ := (matched_append _ _ _).1 hm
    have hm' : Matched env w base ac.paths (f ++ (fs ++ g)) := by
      rw [hp]; exact (matched_append _ _ _).2 ⟨f, _, rfl, h1, .cons hf h2⟩
    obtain ⟨_, a2, a3, _⟩ := rust_parsed (ac := { ac with paths := pre ++ post }) hr hne hm h
    obtain ⟨b1, b2, b3, _⟩ := rust_parsed hr hne' hm' h'
    obtain ⟨reqs, perrs, c1, _⟩ := C17_first_kept h'
    have hv := (C17_none_vanishes h' c1).1
    have hreqs : reqs = (f ++ (fs ++ g)).flatMap (requirementsIn env w .rust) := by
      have := ((parseArtefact_filesOf (.inl ⟨hr, hne', hm'⟩) _).1 c1).2
      rw [hr] at this
      exact (Prod.mk.inj (Prod.mk.inj this).2).1
    constructor
    · intro id r hget
      rw [a2] at hget
      have hmem := List.mem_of_find?_eq_some hget
      have hid : r.id = id := by simpa using List.find?_some hget
      have hmem' : r ∈ reqs := by
        rw [hreqs]
        rw [List.flatMap_append, List.mem_append] at hmem
        rw [List.flatMap_append, List.flatMap_append, List.mem_append, List.mem_append]
        rcases hmem with x | x
        · exact .inl x
        · exact .inr (.inr x)
      rcases hv r hmem' with x | ⟨kept, _, x⟩
      · exact .inl (by rw [← hid]; exact x)
      · exact .inr ⟨kept, x⟩
    · intro e he hnd
      rw [a3] at he
      rcases List.mem_append.1 he with he | he
      · rw [b3]
        refine List.mem_append_left _ ?_
        rw [List.flatMap_append, List.mem_append] at he
        rw [List.flatMap_append, List.flatMap_append, List.mem_append, List.mem_append]
        rcases he with x | x
        · exact .inl x
        · exact .inr (.inr x)
      · exact absurd (mem_duplicates_about he) hnd
  · have hm' : ¬ ∃ gs, Matched env w base ac.paths gs := by
      intro hx
      refine hm ((matched_or _).2 fun q hq => (matched_or _).1 hx q ?_)
      rw [hp]
      rcases List.mem_append.1 hq with x | x
      · exact List.mem_append_left _ x
      · exact List.mem_append_right _ (List.mem_cons_of_mem _ x)
    obtain ⟨_, a2, q, e, rfl, a4⟩ := rust_failed (ac := { ac with paths := pre ++ post }) hr hne hm h
    obtain ⟨_, b2, q', e', rfl, b4⟩ := rust_failed hr hne' hm' h'
    refine ⟨fun id r hx => (by rw [a2 id] at hx; cases hx), fun x hx _ => ?_⟩
    obtain ⟨pre1, p1, post1, fs1, c1, c2, c3⟩ := (globPaths_failed ..).1 a4
    have hfail : globPaths env w base ac.paths = .error (.io q e) := by
      rw [hp]
      rcases List.append_eq_append_iff.1 c1 with ⟨as, d1, d2⟩ | ⟨cs, d1, d2⟩
      · subst d1
        obtain ⟨x, y, rfl, z1, z2⟩ := (matched_append _ _ _).1 c2
        exact (globPaths_failed ..).2 ⟨pre ++ p :: as, p1, post1, x ++ (fs ++ y), by rw [d2]; simp,
          (matched_append _ _ _).2 ⟨x, _, rfl, z1, .cons hf z2⟩, c3⟩
      · cases cs with
        | nil =>
          rw [List.append_nil] at d1
          subst d1
          refine (globPaths_failed ..).2 ⟨pre ++ [p], p1, post1, fs1 ++ (fs ++ []), by rw [show p1 :: post1 = post from d2]; simp,
            (matched_append _ _ _).2 ⟨fs1, _, rfl, c2, .cons hf .nil⟩, c3⟩
        | cons c cs =>
          obtain ⟨rfl, rfl⟩ := List.cons.inj d2
          exact (globPaths_failed ..).2 ⟨pre1, p1, cs ++ p :: post, fs1, by rw [d1]; simp, c2, c3⟩
    rw [hfail] at b4
    cases b4
    exact hx

/-- **C127**, otherwise: all requirements of the artefact are lost, and the one error that remains is about the files
that cannot be listed. -/
theorem C127_not_searched_partial {env : Env} {w : World} {ac : ArtefactConfig} {base : Path} {p : Str}
    {files : List Path} {m : BMap RequirementId Requirement} {errs : List Error}
    (hr : ac.parser = .rust) (hp : p ∈ ac.paths) (h : parseFromConfig env w ac base = .ok (files, m, errs))
    (hf : ¬ ∃ fs, Finds env w base p fs) :
    (∀ id, m.get id = none) ∧ ∃ q e, errs = [.io q e] := by
  have hne : ac.paths ≠ [] := by intro h0; rw [h0] at hp; cases hp
  obtain ⟨_, a2, q, e, a3, _⟩ := rust_failed hr hne (fun hx => hf ((matched_or _).1 hx p hp)) h
  exact ⟨a2, q, e, a3⟩

namespace PatternExample
open CtrlExample

/-- `fn f() { requirement_covered!(REQ_A); }` -/
def tree : Rs.Forest := .item (.fn c!"f") 1 3 (.mac (RustExample.mark 1 [RustExample.ident c!"REQ_A" 1 31]) .nil) .nil

def f : Requirement := ⟨c!"f", none, ⟨c!"p/a.rs", some (.lineAndColumn 1 3)⟩,
  [⟨c!"REQ_A", none, ⟨c!"p/a.rs", some (.lineAndColumn 1 8)⟩⟩], [], [], .empty⟩

def f' : Requirement := ⟨c!"f", none, ⟨c!"/tags", some (.lineAndColumn 1 3)⟩,
  [⟨c!"REQ_A", none, ⟨c!"/tags", some (.lineAndColumn 1 8)⟩⟩], [], [], .empty⟩

/-- `[` is no pattern, `none/*` matches nothing, every other pattern matches itself. -/
def penv : Env :=
  { env tree config with
    os := { os with glob := fun _ p => if p = c!"p/[" then .error c!"invalid range" else
              if p = c!"p/none/*" then .ok [] else .ok [.ok p] } }

def art (paths : List Str) : ArtefactConfig := ⟨c!"CODE", paths, .rust, none, none⟩

/-- What is read for an artefact with these paths. -/
def result (paths : List Str) : Option (List Path × List RequirementId × List Error) :=
  (parseFromConfig penv (world files) (art paths) c!"p").toOption.map fun v => (v.1, v.2.1.keys, v.2.2)

theorem result_ok {paths : List Str} {fs ids errs} (h : result paths = some (fs, ids, errs)) :
    ∃ m, parseFromConfig penv (world files) (art paths) c!"p" = .ok (fs, m, errs) ∧ m.keys = ids := by
  unfold result at h
  cases hp : parseFromConfig penv (world files) (art paths) c!"p" with
  | error e => rw [hp] at h; cases h
  | ok v =>
    rw [hp] at h
    obtain ⟨a, b, c⟩ := v
    simp only [Except.toOption, Option.map_some, Option.some.injEq, Prod.mk.injEq] at h
    obtain ⟨rfl, h2, rfl⟩ := h
    exact ⟨b, rfl, h2⟩

end PatternExample

/-- C127 is false as listed: with a second path that is no pattern, the requirements found by the first are lost. -/
theorem C127_false : ¬ C127_statement := by
  intro h
  obtain ⟨m, h1, h2⟩ := PatternExample.result_ok (paths := [c!"a.rs"])
    (show _ = some ([c!"p/a.rs"], [c!"f"], []) by decide +kernel)
  obtain ⟨m', h1', h2'⟩ := PatternExample.result_ok (paths := [c!"a.rs", c!"["])
    (show _ = some ([c!"a.rs", c!"["], [], [.io c!"[" c!"invalid range"]) by decide +kernel)
  obtain ⟨h3, _⟩ := h PatternExample.penv (CtrlExample.world CtrlExample.files) (PatternExample.art [c!"a.rs", c!"["]) c!"p"
    [c!"a.rs"] [] c!"[" _ _ m m' _ _ rfl rfl (by simp) h1 h1'
  have hmem : c!"f" ∈ m.keys := by rw [h2]; simp
  obtain ⟨r, hr⟩ := Option.isSome_iff_exists.1 ((BMap.mem_keys_iff_isSome _ _).1 hmem)
  rcases h3 _ _ hr with x | ⟨kept, x⟩
  · have : c!"f" ∈ m'.keys := (BMap.mem_keys_iff_isSome _ _).2 (by rw [x]; rfl)
    rw [h2'] at this; cases this
  · simp at x

/-- A path that can be searched: nothing is lost.  The same path once more: what it finds is there already, and reported. -/
example : Finds PatternExample.penv (CtrlExample.world CtrlExample.files) c!"p" c!"b.rs" [c!"p/b.rs"] ∧
    PatternExample.result [c!"a.rs", c!"b.rs"] = some ([c!"p/a.rs", c!"p/b.rs"], [c!"f"],
      [.io c!"p/b.rs" c!"not found"]) :=
  ⟨by unfold Finds; rfl, by decide +kernel⟩

/-! ## C128 -/

/-- **C128 as listed**: a path for which no file is found is reported. -/
def C128_statement : Prop := ∀ (env : Env) (w : World) (ac : ArtefactConfig) (base : Path) (files : List Path)
    (m : BMap RequirementId Requirement) (errs : List Error) (p : Str),
  parseFromConfig env w ac base = .ok (files, m, errs) → p ∈ ac.paths → FindsNothing env w ac base p → errs ≠ []

/-- C128 is false as listed: a pattern of a Rust artefact that matches nothing. -/
theorem C128_false : ¬ C128_statement := by
  intro h
  obtain ⟨m, h1, _⟩ := PatternExample.result_ok (paths := [c!"none/*"]) (show _ = some ([], [], []) by decide +kernel)
  exact h _ _ _ _ _ _ _ c!"none/*" h1 (by simp [PatternExample.art]) (.inl ⟨rfl, by unfold Finds; rfl⟩) rfl

/-- **C128** for the parsers other than Rust: the file is named, or the number of paths is wrong. -/
theorem C128_single_partial {env : Env} {w : World} {ac : ArtefactConfig} {base : Path} {files : List Path}
    {m : BMap RequirementId Requirement} {errs : List Error} {p : Str} (hr : ac.parser ≠ .rust)
    (h : parseFromConfig env w ac base = .ok (files, m, errs)) (hp : p ∈ ac.paths)
    (hf : FindsNothing env w ac base p) :
    (∀ id, m.get id = none) ∧
    ((∃ e, ac.paths = [p] ∧ files = [target base p] ∧ errs = [.io (target base p) e] ∧
        env.os.openFile w (target base p) = .error e) ∨
      ac.paths.length ≠ 1 ∧ ∃ e, errs = [.config e]) := by
  obtain ⟨reqs, perrs, h1, h2, rfl⟩ := C17_first_kept h
  rcases hf with ⟨h0, _⟩ | ⟨_, e, ho⟩
  · exact absurd h0 hr
  cases parseArtefact_iff.1 h1 with
  | files h3 h4 =>
    rcases h3 with ⟨h5, _⟩ | ⟨_, q, h5, rfl⟩
    · exact absurd h5 hr
    · rw [h5] at hp
      cases List.mem_singleton.1 hp
      cases h4 with
      | cons h6 h7 =>
        cases h7
        cases h6 with
        | closed h8 =>
          rw [ho] at h8
          cases h8
          exact ⟨h2, .inl ⟨e, h5, rfl, rfl, ho⟩⟩
        | opened h8 _ => rw [ho] at h8; cases h8
  | noPaths h3 => exact absurd h3 hr
  | badPattern h3 => exact absurd h3 hr
  | badMatch h3 => exact absurd h3 hr
  | notOne h3 h4 => exact ⟨h2, .inr ⟨h4, _, rfl⟩⟩

theorem parseFromConfig_congr {env : Env} {w : World} {ac ac' : ArtefactConfig} {base : Path}
    (h : parseArtefact env w ac base = parseArtefact env w ac' base) :
    parseFromConfig env w ac base = parseFromConfig env w ac' base := by
  unfold parseFromConfig; rw [h]

/-- **C128**, what happens instead: a pattern of a Rust artefact that matches nothing is as good as not there, unless all
patterns are wrong in another way; alone it makes an empty artefact without any error. -/
theorem C128_rust_partial {env : Env} {w : World} {ac : ArtefactConfig} {base : Path} {pre post : List Str} {p : Str}
    (hr : ac.parser = .rust) (hp : ac.paths = pre ++ p :: post) (hf : FindsNothing env w ac base p) :
    (pre ++ post = [] → parseFromConfig env w ac base = .ok ([], .empty, [])) ∧
    (pre ++ post ≠ [] → (∃ fs, Matched env w base ac.paths fs) →
      parseFromConfig env w ac base = parseFromConfig env w { ac with paths := pre ++ post } base) := by
  have hf : Finds env w base p [] := by
    rcases hf with ⟨_, h⟩ | ⟨h, _⟩
    · exact h
    · exact absurd hr h
  have hne : ac.paths ≠ [] := by rw [hp]; simp
  constructor
  · intro h0
    obtain ⟨rfl, rfl⟩ := List.append_eq_nil_iff.1 h0
    have hm : Matched env w base ac.paths [] := by rw [hp]; exact .cons (fs := []) (gs := []) hf .nil
    have hpa := (parseArtefact_filesOf (.inl ⟨hr, hne, hm⟩) ([], [], [])).2 ⟨fun p hp => (by cases hp), rfl⟩
    unfold parseFromConfig
    rw [hpa]; rfl
  · rintro h0 ⟨fs, hm⟩
    refine parseFromConfig_congr ?_
    have hm0 := hm
    rw [hp] at hm0
    obtain ⟨f, g, rfl, h1, h2⟩ := (matched_append _ _ _).1 hm0
    have hm1 : ∃ gs, Matched env w base post gs ∧ f ++ g = f ++ gs := by
      cases h2 with
      | cons h3 h4 =>
        unfold Finds at hf
        rw [hf] at h3
        have hnil := (Except.ok.inj h3).symm
        rw [List.map_nil, List.map_eq_nil_iff] at hnil
        subst hnil
        exact ⟨_, h4, rfl⟩
    obtain ⟨gs, h4, he⟩ := hm1
    rw [he] at hm
    have hm1 : Matched env w base (pre ++ post) (f ++ gs) := (matched_append _ _ _).2 ⟨f, gs, rfl, h1, h4⟩
    have hpa : ∀ ac' : ArtefactConfig, ac'.parser = .rust → parseArtefact env w ac' base = parseMultipleFiles env w ac' base := by
      intro ac' hr'; unfold parseArtefact; rw [hr']
    rw [hpa ac hr, hpa { ac with paths := pre ++ post } hr]
    unfold parseMultipleFiles
    rw [if_neg hne, if_neg h0, (globPaths_ok env w base _ _).2 hm, (globPaths_ok env w base _ _).2 hm1]

example : FindsNothing PatternExample.penv (CtrlExample.world CtrlExample.files) (PatternExample.art [c!"none/*", c!"a.rs"]) c!"p"
      c!"none/*" ∧
    PatternExample.result [c!"none/*", c!"a.rs"] = some ([c!"p/a.rs"], [c!"f"], []) :=
  ⟨.inl ⟨rfl, by unfold Finds; rfl⟩, by decide +kernel⟩

/-! ## C129 -/

/-- **C129 as listed**: a file that several paths of an artefact find is read once. -/
def C129_statement : Prop := ∀ (env : Env) (w : World) (ac : ArtefactConfig) (base : Path) (files : List Path)
    (m : BMap RequirementId Requirement) (errs : List Error),
  parseFromConfig env w ac base = .ok (files, m, errs) → files.Nodup

/-- C129 is false as listed. -/
theorem C129_false : ¬ C129_statement := by
  intro h
  obtain ⟨m, h1, _⟩ := PatternExample.result_ok (paths := [c!"a.rs", c!"a.rs"])
    (show _ = some ([c!"p/a.rs", c!"p/a.rs"], [c!"f"],
      [.duplicateRequirement PatternExample.f PatternExample.f]) by decide +kernel)
  exact absurd (h _ _ _ _ _ _ _ h1) (by decide)

/-- **C129**, what happens: every requirement of a file that is found twice is reported, as one of two requirements with
the same id. -/
theorem C129_twice_partial {env : Env} {w : World} {ac : ArtefactConfig} {base : Path} {files a b c : List Path} {f : Path}
    {m : BMap RequirementId Requirement} {errs : List Error} (hn : ∃ fs, FilesOf env w ac base fs)
    (h : parseFromConfig env w ac base = .ok (files, m, errs)) (hfs : files = a ++ f :: b ++ f :: c)
    {rs : List Requirement} {es : List Error} (hm : PathMeans env w ac.parser f rs es) :
    ∀ r ∈ rs, ∃ kept, m.get r.id = some kept ∧ .duplicateRequirement kept r ∈ errs := by
  intro r hr
  obtain ⟨fs, hn⟩ := hn
  obtain ⟨reqs, perrs, h1, h2, rfl⟩ := C17_first_kept h
  obtain ⟨h3, h4⟩ := (parseArtefact_filesOf hn _).1 h1
  simp only [Prod.mk.injEq] at h4
  obtain ⟨rfl, rfl, rfl⟩ := h4
  have hrf : requirementsIn env w ac.parser f = rs := (oneFile_parts (oneFile_iff.2 hm)).1
  subst hfs
  have hsplit : (a ++ f :: b ++ f :: c).flatMap (requirementsIn env w ac.parser) =
      (a ++ f :: b).flatMap (requirementsIn env w ac.parser) ++ (rs ++ c.flatMap (requirementsIn env w ac.parser)) := by
    rw [List.flatMap_append, List.flatMap_cons, hrf]
  obtain ⟨x, y, rfl⟩ := List.append_of_mem hr
  have hmem : r ∈ (a ++ f :: b).flatMap (requirementsIn env w ac.parser) := by
    rw [List.flatMap_append, List.flatMap_cons, hrf]; simp
  cases hfind : ((a ++ f :: b).flatMap (requirementsIn env w ac.parser)).find? (fun s => s.id = r.id) with
  | none => exact absurd (List.find?_eq_none.1 hfind r hmem) (by simp)
  | some first =>
    refine ⟨first, ?_, List.mem_append_right _ (mem_duplicates.2
      ⟨((a ++ f :: b).flatMap (requirementsIn env w ac.parser)).length + x.length, ?_, ?_⟩)⟩
    · rw [h2, hsplit, List.find?_append, hfind]; rfl
    · rw [hsplit, List.getElem?_append_right (by omega)]
      simp
    · rw [hsplit, List.take_length_add_append, List.find?_append, hfind]; rfl

theorem matched_nodup {env : Env} {w : World} {base : Path} {ps : List Str} {fs : List Path} (h : Matched env w base ps fs) :
    (∀ p ∈ ps, ∀ l, Finds env w base p l → l.Nodup) →
    ps.Pairwise (fun p q => ∀ l l', Finds env w base p l → Finds env w base q l' → ∀ f ∈ l, f ∉ l') → fs.Nodup := by
  induction h with
  | nil => intro _ _; exact List.nodup_nil
  | @cons p ps l gs h1 h2 ih =>
    intro ha hb
    rw [List.pairwise_cons] at hb
    rw [List.nodup_append]
    refine ⟨ha p List.mem_cons_self _ h1, ih (fun q hq => ha q (List.mem_cons_of_mem _ hq)) hb.2, ?_⟩
    intro x hx y hy hxy
    subst hxy
    have : ∃ q ∈ ps, ∃ l', Finds env w base q l' ∧ x ∈ l' := by
      clear ha hb ih h1 hx
      induction h2 with
      | nil => cases hy
      | cons h3 h4 ih =>
        rcases List.mem_append.1 hy with hy | hy
        · exact ⟨_, List.mem_cons_self, _, h3, hy⟩
        · obtain ⟨q, hq, l', hl⟩ := ih hy
          exact ⟨q, List.mem_cons_of_mem _ hq, l', hl⟩
    obtain ⟨q, hq, l', hl', hxl⟩ := this
    exact hb.1 q hq _ _ h1 hl' x hx hxl

/-- **C129** if the patterns have no file in common and each lists its files once. -/
theorem C129_disjoint_partial {env : Env} {w : World} {ac : ArtefactConfig} {base : Path} {files : List Path}
    {m : BMap RequirementId Requirement} {errs : List Error}
    (h : parseFromConfig env w ac base = .ok (files, m, errs)) (hn : ∃ fs, FilesOf env w ac base fs)
    (hone : ∀ p ∈ ac.paths, ∀ l, Finds env w base p l → l.Nodup)
    (hdis : ac.paths.Pairwise (fun p q => ∀ l l', Finds env w base p l → Finds env w base q l' → ∀ f ∈ l, f ∉ l')) :
    files.Nodup := by
  obtain ⟨fs, hn⟩ := hn
  obtain ⟨reqs, perrs, h1, h2, rfl⟩ := C17_first_kept h
  obtain ⟨h3, h4⟩ := (parseArtefact_filesOf hn _).1 h1
  simp only [Prod.mk.injEq] at h4
  obtain ⟨rfl, _⟩ := h4
  rcases hn with ⟨_, _, hm⟩ | ⟨_, p, _, rfl⟩
  · exact matched_nodup hm hone hdis
  · simp

/-! ## C130 -/

/-- **C130 as listed**: the order of the paths does not matter. -/
def C130_statement : Prop := ∀ (env : Env) (w : World) (ac : ArtefactConfig) (base : Path) (paths : List Str)
    (files files' : List Path) (m m' : BMap RequirementId Requirement) (errs errs' : List Error),
  paths.Perm ac.paths → parseFromConfig env w ac base = .ok (files, m, errs) →
  parseFromConfig env w { ac with paths := paths } base = .ok (files', m', errs') →
    files'.Perm files ∧ m' = m ∧ errs'.Perm errs

/-- C130 is false as listed: of two requirements with the same id, that of the first path is the one that counts. -/
theorem C130_false : ¬ C130_statement := by
  intro h
  obtain ⟨m, h1, _⟩ := PatternExample.result_ok (paths := [c!"a.rs", c!"/tags"])
    (show _ = some ([c!"p/a.rs", c!"/tags"], [c!"f"],
      [.duplicateRequirement PatternExample.f PatternExample.f']) by decide +kernel)
  obtain ⟨m', h1', _⟩ := PatternExample.result_ok (paths := [c!"/tags", c!"a.rs"])
    (show _ = some ([c!"/tags", c!"p/a.rs"], [c!"f"],
      [.duplicateRequirement PatternExample.f' PatternExample.f]) by decide +kernel)
  obtain ⟨_, _, hp⟩ := h _ _ (PatternExample.art [c!"a.rs", c!"/tags"]) _ [c!"/tags", c!"a.rs"] _ _ m m' _ _
    (List.Perm.swap ..) h1 h1'
  have := hp.mem_iff (a := .duplicateRequirement PatternExample.f PatternExample.f')
  simp only [List.mem_singleton, iff_true, Error.duplicateRequirement.injEq] at this
  exact absurd this.1 (by decide +kernel)

theorem matched_perm {env : Env} {w : World} {base : Path} {ps qs : List Str} (hp : ps.Perm qs) : ∀ {fs : List Path},
    Matched env w base ps fs → ∃ gs, Matched env w base qs gs ∧ fs.Perm gs := by
  induction hp with
  | nil => intro fs h; exact ⟨fs, h, .refl _⟩
  | cons x h ih =>
    intro fs hm
    cases hm with
    | cons h1 h2 =>
      obtain ⟨gs, h3, h4⟩ := ih h2
      exact ⟨_, .cons h1 h3, List.Perm.append_left _ h4⟩
  | swap x y l =>
    intro fs hm
    cases hm with
    | cons h1 h2 =>
      cases h2 with
      | cons h3 h4 =>
        refine ⟨_, .cons h3 (.cons h1 h4), ?_⟩
        rw [← List.append_assoc, ← List.append_assoc]
        exact List.Perm.append_right _ List.perm_append_comm
  | trans _ _ ih1 ih2 =>
    intro fs hm
    obtain ⟨gs, h1, h2⟩ := ih1 hm
    obtain ⟨hs, h3, h4⟩ := ih2 h1
    exact ⟨hs, h3, h2.trans h4⟩

theorem find_nodup {l l' : List Requirement} (hp : l.Perm l') (hn : (l.map (·.id)).Nodup) (id : RequirementId) :
    l.find? (fun r => r.id = id) = l'.find? (fun r => r.id = id) := by
  have huniq : ∀ r ∈ l, ∀ s ∈ l, r.id = s.id → r = s := by
    intro r hr s hs he
    obtain ⟨i, hi⟩ := List.mem_iff_getElem?.1 hr
    obtain ⟨j, hj⟩ := List.mem_iff_getElem?.1 hs
    have hi' : (l.map (·.id))[i]? = some r.id := by rw [List.getElem?_map, hi]; rfl
    have hj' : (l.map (·.id))[j]? = some s.id := by rw [List.getElem?_map, hj]; rfl
    have hij : i = j := (List.getElem?_inj (List.getElem?_eq_some_iff.1 hi').1 hn).1 (by rw [hi', hj', he])
    rw [hij, hj] at hi; cases hi; rfl
  cases h : l.find? (fun r => r.id = id) with
  | none =>
    symm
    rw [List.find?_eq_none] at h ⊢
    intro x hx; exact h x (hp.mem_iff.2 hx)
  | some r =>
    have h1 := List.mem_of_find?_eq_some h
    have h2 : r.id = id := by simpa using List.find?_some h
    cases h' : l'.find? (fun r => r.id = id) with
    | none => exact absurd (List.find?_eq_none.1 h' r (hp.mem_iff.1 h1)) (by simpa using h2)
    | some s =>
      have h3 := List.mem_of_find?_eq_some h'
      have h4 : s.id = id := by simpa using List.find?_some h'
      rw [huniq r h1 s (hp.mem_iff.2 h3) (h2.trans h4.symm)]

/-- **C130** if all paths can be searched: the same files are read, with the same ids; and if no id occurs twice,
everything is the same but the order of files and errors. -/
theorem C130_order_partial {env : Env} {w : World} {ac : ArtefactConfig} {base : Path} {paths : List Str}
    {files files' : List Path} {m m' : BMap RequirementId Requirement} {errs errs' : List Error}
    (hp : paths.Perm ac.paths) (h : parseFromConfig env w ac base = .ok (files, m, errs))
    (h' : parseFromConfig env w { ac with paths := paths } base = .ok (files', m', errs'))
    (hn : ∃ fs, FilesOf env w ac base fs) :
    files'.Perm files ∧ m'.keys = m.keys ∧
    ((∀ e ∈ errs, ¬ AboutDuplicates e) → m' = m ∧ errs'.Perm errs) := by
  obtain ⟨fs, hn⟩ := hn
  have hn' : ∃ fs', FilesOf env w { ac with paths := paths } base fs' ∧ fs'.Perm fs := by
    rcases hn with ⟨h1, h2, h3⟩ | ⟨h1, p, h2, rfl⟩
    · obtain ⟨gs, h4, h5⟩ := matched_perm hp.symm h3
      refine ⟨gs, .inl ⟨h1, fun h0 => h2 ?_, h4⟩, h5.symm⟩
      have h0 : paths = [] := h0
      rw [h0] at hp
      exact hp.nil_eq.symm
    · rw [h2, List.perm_singleton] at hp
      exact ⟨_, .inr ⟨h1, p, hp, rfl⟩, .refl _⟩
  obtain ⟨fs', hn', hperm⟩ := hn'
  obtain ⟨reqs, perrs, a1, a2, rfl⟩ := C17_first_kept h
  obtain ⟨reqs', perrs', b1, b2, rfl⟩ := C17_first_kept h'
  obtain ⟨_, a4⟩ := (parseArtefact_filesOf hn _).1 a1
  obtain ⟨_, b4⟩ := (parseArtefact_filesOf hn' _).1 b1
  simp only [Prod.mk.injEq] at a4 b4
  obtain ⟨rfl, rfl, rfl⟩ := a4
  obtain ⟨rfl, rfl, rfl⟩ := b4
  have hreqs := hperm.flatMap_right (requirementsIn env w ac.parser)
  have herrs := hperm.flatMap_right (errorsIn env w ac.parser)
  refine ⟨hperm, ?_, fun hnd => ?_⟩
  · apply BMap.keys_ext (BMap.keys_sorted _) (BMap.keys_sorted _)
    intro id
    rw [BMap.mem_keys_iff_isSome, BMap.mem_keys_iff_isSome, a2, b2, List.find?_isSome, List.find?_isSome]
    constructor
    · rintro ⟨x, hx, hy⟩; exact ⟨x, hreqs.mem_iff.1 hx, hy⟩
    · rintro ⟨x, hx, hy⟩; exact ⟨x, hreqs.mem_iff.2 hx, hy⟩
  · have hd : duplicates (files.flatMap (requirementsIn env w ac.parser)) = [] := by
      cases hd : duplicates (files.flatMap (requirementsIn env w ac.parser)) with
      | nil => rfl
      | cons e es =>
        have he : e ∈ duplicates (files.flatMap (requirementsIn env w ac.parser)) := by rw [hd]; exact List.mem_cons_self
        exact absurd (mem_duplicates_about he) (hnd e (List.mem_append_right _ he))
    have hnod := (duplicates_nil_iff _).1 hd
    have hnod' := (hreqs.map (·.id)).nodup_iff.2 hnod
    have hd' := (duplicates_nil_iff _).2 hnod'
    refine ⟨?_, ?_⟩
    · apply BMap.ext_get
      intro id
      rw [a2, b2]
      exact find_nodup hreqs hnod' id
    · show (files'.flatMap (errorsIn env w ac.parser) ++ duplicates (files'.flatMap (requirementsIn env w ac.parser))).Perm _
      rw [hd, hd', List.append_nil, List.append_nil]
      exact herrs

example : PatternExample.result [c!"a.rs", c!"b.rs"] = some ([c!"p/a.rs", c!"p/b.rs"], [c!"f"], [.io c!"p/b.rs" c!"not found"]) ∧
    PatternExample.result [c!"b.rs", c!"a.rs"] = some ([c!"p/b.rs", c!"p/a.rs"], [c!"f"], [.io c!"p/b.rs" c!"not found"]) ∧
    ∃ fs, FilesOf PatternExample.penv (CtrlExample.world CtrlExample.files) (PatternExample.art [c!"a.rs", c!"b.rs"]) c!"p" fs :=
  ⟨by decide +kernel, by decide +kernel,
    [c!"p/a.rs"] ++ ([c!"p/b.rs"] ++ []), .inl ⟨rfl, by simp [PatternExample.art],
      .cons (by decide +kernel) (.cons (by decide +kernel) .nil)⟩⟩

end Reqtrace
