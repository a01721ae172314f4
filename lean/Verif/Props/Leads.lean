import Verif.Spec.Leads
import Verif.Props.Doc
import Verif.Props.Moved

/-!
# C148: places lead to what they are about
-/

namespace Reqtrace

open Spec

theorem lines_around {text : Str} {ls : List Str} (h : TextLines text ls) :
    ∃ ls', Lines text ls' ∧ ∀ (k : Nat) (l : Str), ls[k]? = some l → ∃ l', ls'[k]? = some l' ∧ l <:+: l' := by
  induction h with
  | nil => exact ⟨[], .nil, by simp⟩
  | last l h1 h2 => exact ⟨[l], .last l h1 h2, fun k l' h => ⟨l', h, List.infix_refl _⟩⟩
  | lf l h1 h2 _ ih =>
    obtain ⟨ls', h3, h4⟩ := ih
    refine ⟨(l ++ ['\n']) :: ls', by simpa using Lines.cons l h1 h3, fun k l' h => ?_⟩
    cases k with
    | zero => simp only [List.getElem?_cons_zero, Option.some.injEq] at h; subst h; exact ⟨_, rfl, ⟨[], ['\n'], by simp⟩⟩
    | succ k => exact h4 k l' (by simpa using h)
  | crlf l h1 _ ih =>
    obtain ⟨ls', h3, h4⟩ := ih
    refine ⟨(l ++ ['\r'] ++ ['\n']) :: ls', ?_, fun k l' h => ?_⟩
    · have := Lines.cons (l ++ ['\r']) (by simp [h1]) h3
      simpa using this
    · cases k with
      | zero =>
        simp only [List.getElem?_cons_zero, Option.some.injEq] at h; subst h
        exact ⟨_, rfl, ⟨[], ['\r', '\n'], by simp⟩⟩
      | succ k => exact h4 k l' (by simpa using h)

theorem arrows_places {U : Unicode} {path : Path} {n : Nat} {ls : List Str} {refs : List Reference} (h : Arrows U path n ls refs) :
    ∀ ref ∈ refs, ∃ k l, ref.location = ⟨path, some (.line (n + k))⟩ ∧ ls[k]? = some l ∧ ref.id <:+: l := by
  induction h with
  | nil => intro r hr; cases hr
  | skip _ _ ih =>
    intro r hr
    obtain ⟨k, l, h1, h2, h3⟩ := ih r hr
    exact ⟨k + 1, l, by rw [h1]; congr 3; omega, by simpa using h2, h3⟩
  | take h1 _ ih =>
    intro r hr
    rcases List.mem_cons.1 hr with rfl | hr
    · obtain ⟨pre, s, rfl, ⟨_, w, tail, _, rfl, _⟩, _⟩ := h1
      exact ⟨0, _, rfl, rfl, ⟨pre ++ c!"=>" ++ w, tail, by simp⟩⟩
    · obtain ⟨k, l, h1, h2, h3⟩ := ih r hr
      exact ⟨k + 1, l, by rw [h1]; congr 3; omega, by simpa using h2, h3⟩

theorem allMarks_entry {debug : List Rs.Tok → Str} {path : Path} {os : List Occ} {es : List Entry} {errs : List Error}
    (h : AllMarks debug path os es errs) : ∀ e ∈ es, ∃ o ∈ os, IsMark o.mac ∧ Reads o.mac e.ref.id e.ref.title ∧ e.names = o.names ∧
      e.loc = o.loc ∧ e.ref.location = ⟨path, some (.lineAndColumn o.mac.line o.mac.column)⟩ := by
  induction h with
  | nil => intro e he; cases he
  | other _ _ ih => intro e he; obtain ⟨o, h1, h2⟩ := ih e he; exact ⟨o, List.mem_cons_of_mem _ h1, h2⟩
  | bad _ _ _ ih => intro e he; obtain ⟨o, h1, h2⟩ := ih e he; exact ⟨o, List.mem_cons_of_mem _ h1, h2⟩
  | good h1 h2 _ ih =>
    intro e he
    rcases List.mem_cons.1 he with rfl | he
    · exact ⟨_, List.mem_cons_self, h1, h2, rfl, rfl, rfl⟩
    · obtain ⟨o, h1, h2⟩ := ih e he; exact ⟨o, List.mem_cons_of_mem _ h1, h2⟩

theorem occs_file {path : Path} {names : List Str} {loc : Option Location} {f : Rs.Forest} (hl : ∀ l, loc = some l → l.file = path) :
    ∀ o ∈ occs path names loc f, ∀ l, o.loc = some l → l.file = path := by
  induction f generalizing names loc with
  | nil => intro o ho; cases ho
  | mac m rest ih =>
    intro o ho
    rcases List.mem_cons.1 ho with rfl | ho
    · exact hl
    · exact ih hl o ho
  | item i l c inner rest ih1 ih2 =>
    intro o ho
    rcases List.mem_append.1 ho with ho | ho
    · exact ih1 (by intro l h; cases h; rfl) o ho
    · exact ih2 hl o ho
  | node inner rest ih1 ih2 =>
    intro o ho
    rcases List.mem_append.1 ho with ho | ho
    · exact ih1 hl o ho
    · exact ih2 hl o ho

/-- What a file says stands where it says. -/
theorem file_places {env : Env} {w : World} {p : Path} {file : File} {parser : ArtefactParser} {reqs : List Requirement}
    {errs : List Error} (ho : env.os.openFile w p = .ok file) (h : FileMeans env p file parser reqs errs) {r : Requirement} (hr : r ∈ reqs)
    (hj : parser ≠ .json) :
    r.location.file = p ∧ StandsAt env w parser r.location r.id ∧
      ∀ ref ∈ r.covers ++ r.depends, ref.location.file = p ∧ RefersAt env w parser ref.location ref.id := by
  have hres := h
  rw [← C81_file] at hres
  cases h with
  | markdown h1 h2 h3 h4 h5 =>
    have hl := (readLines_iff _ _ _).1 h1
    have hp : Md.parse env.U file.lines p = .ok (reqs, _) := hres
    rw [hl] at hp
    obtain ⟨⟨l, ⟨k, k1, k2⟩, k3⟩, k4⟩ := C36_ids_occur env.U _ p reqs _ _ hp h3 r hr
    refine ⟨by rw [k1], ⟨k + 1, by rw [k1], file, _, _, _, l, by rw [k1]; exact ho, h1, h3, Nat.succ_pos _, k2, k3⟩, fun ref hrf => ?_⟩
    obtain ⟨l, ⟨k, m1, m2⟩, m3⟩ := k4 ref hrf
    exact ⟨by rw [m1], k + 1, by rw [m1], file, _, _, _, l, by rw [m1]; exact ho, h1, h3, Nat.succ_pos _, m2, m3⟩
  | mono h1 h2 h3 h4 h5 =>
    simp only [List.mem_singleton] at hr
    subst hr
    refine ⟨rfl, ⟨rfl, ⟨_, ho⟩, .inl ⟨_, h4, h5⟩⟩, ?_⟩
    simp only [List.nil_append]
    exact mono_refs ho h1 h2 h3
  | monoNoName h1 h2 h3 h4 =>
    simp only [List.mem_singleton] at hr
    subst hr
    refine ⟨rfl, ⟨rfl, ⟨_, ho⟩, .inr ⟨h4, rfl⟩⟩, ?_⟩
    simp only [List.nil_append]
    exact mono_refs ho h1 h2 h3
  | rust h1 h2 =>
    cases h2 with
    | unreadable => cases hr
    | syntaxError => cases hr
    | marks k1 k2 k3 k4 =>
      obtain ⟨gs, rfl, rfl, hg, _⟩ := k4
      obtain ⟨g, hgm, rfl⟩ := List.mem_map.1 hr
      obtain ⟨m1, m2, ⟨e, rest, m3, m4⟩, _, m5, _⟩ := hg g hgm
      have hin : ∀ e ∈ g.2, e ∈ (gs.map Prod.snd).flatten := fun e he =>
        List.mem_flatten.2 ⟨g.2, List.mem_map.2 ⟨g, hgm, rfl⟩, he⟩
      have call : ∀ o ∈ occs p [] none _, CallIn env w p o := fun o hm => ⟨file, _, _, ho, h1, k1, k2, hm⟩
      have hem : e ∈ g.2 := by rw [m3]; exact List.mem_cons_self
      obtain ⟨o, o1, o2, o3, o4, o5, _⟩ := allMarks_entry k3 e (hin e hem)
      have hf : g.1.location.file = p := occs_file (by simp) o o1 _ (by rw [← o5, m4])
      refine ⟨hf, ⟨o, _, _, by rw [hf]; exact call o o1, o2, o3, by rw [← o5, m4], by rw [← o4]; exact m2 e hem⟩, fun ref hrf => ?_⟩
      rw [m1, m5, List.append_nil] at hrf
      obtain ⟨e', he', rfl⟩ := List.mem_map.1 hrf
      obtain ⟨o, o1, o2, o3, _, _, o6⟩ := allMarks_entry k3 e' (hin e' he')
      rw [o6]
      exact ⟨rfl, o, _, call o o1, o2, o3, rfl⟩
  | json => exact absurd rfl hj
  | jsonWrong => exact absurd rfl hj
where
  mono_refs {env : Env} {w : World} {p : Path} {file : File} {text : Str} {ls : List Str} {refs : List Reference}
      (ho : env.os.openFile w p = .ok file) (h1 : file = ⟨Utf8.encode text, none⟩) (h2 : TextLines text ls)
      (h3 : Arrows env.U p 2 ls.tail refs) :
      ∀ ref ∈ refs, ref.location.file = p ∧ RefersAt env w .monoRequirement ref.location ref.id := by
    intro ref hrf
    obtain ⟨k, l, m1, m2, m3⟩ := arrows_places h3 ref hrf
    obtain ⟨ls', n1, n2⟩ := lines_around h2
    obtain ⟨l', n3, n4⟩ := n2 (k + 1) l (by rw [← List.getElem?_tail]; exact m2)
    refine ⟨by rw [m1], 2 + k, by rw [m1], file, text, none, ls', l', by rw [m1]; exact ho, by rw [h1]; exact .all _, n1, by omega, ?_,
      m3.trans n4⟩
    rw [show 2 + k - 1 = k + 1 by omega]
    exact n3

/-- **C148** A requirement stands at its place, in a listed file of its artefact, and so does each of its references,
unless the artefact is JSON. -/
theorem C148_requirement {env : Env} {w : World} {config : Config} {base : Path} {c : Controller}
    (h : Controller.new env w config base = .ok c) {ac : ArtefactConfig} (hl : LastEntry config ac) {r : Requirement}
    (hd : Defines c.graph ac.id r) (hj : ac.parser ≠ .json) :
    Listed c.graph ac.id r.location.file ∧ StandsAt env w ac.parser r.location r.id ∧
      ∀ ref ∈ r.covers ++ r.depends, Listed c.graph ac.id ref.location.file ∧ RefersAt env w ac.parser ref.location ref.id := by
  obtain ⟨ac', h1, h2, fs, p, file, reqs, errs, h3, h4, h5, h6, h7⟩ := (new_isInput h).file_of hd
  obtain rfl := lastEntry_unique h1 hl h2
  obtain ⟨art, ha, _⟩ := hd
  have hp : Listed c.graph ac'.id p := ⟨art, ha, by rw [((C69_files h h1 ha).1 fs h3).1]; exact h4⟩
  obtain ⟨k1, k2, k3⟩ := file_places h5 h6 h7 hj
  exact ⟨k1 ▸ hp, k2, fun ref hr => ⟨(k3 ref hr).1 ▸ hp, (k3 ref hr).2⟩⟩

theorem cited {env : Env} {w : World} {config : Config} {base : Path} {c : Controller}
    (h : Controller.new env w config base = .ok c) {a : ArtefactId} {r : Requirement} (hd : Defines c.graph a r) {ref : Reference}
    (hr : ref ∈ r.covers ∨ ref ∈ r.depends) : CitedAt env w config c.graph a ref.location ref.id := by
  have hd' := hd
  obtain ⟨art, ha, _⟩ := hd
  obtain ⟨ac, h1, rfl, _⟩ := ((new_isInput h).artefacts a art).1 ha
  exact ⟨ac, h1, rfl, fun hj => (C148_requirement h h1 hd' hj).2.2 ref (List.mem_append.2 hr)⟩

/-- **C148** At the place of a coverage there is a reference, in the lower artefact to the upper requirement or the other way
round. -/
theorem C148_coverage {env : Env} {w : World} {config : Config} {base : Path} {c : Controller} {tg : TracedGraph}
    (h : Controller.new env w config base = .ok c) (ht : trace c.graph = .ok tg) {tr : TracedRelation} (htr : tr ∈ tg.tracedRelations)
    {cov : Coverage} (hc : cov ∈ tr.covered) :
    (cov.direction = .upwards ∧ ∃ a ∈ tr.relation.lower, CitedAt env w config c.graph a cov.location cov.upper) ∨
    (cov.direction = .downwards ∧ CitedAt env w config c.graph tr.relation.upper cov.location cov.lower) := by
  have hk := (C18_consistent h).1
  obtain ⟨i, hi⟩ := List.mem_iff_getElem?.1 htr
  have hrel := (C01_coverage_list hk ht hi).1
  obtain ⟨rel, a, u, l, ref, h1, h2, h3⟩ := (C01_coverage_exact hk ht hi cov).1 hc
  obtain rfl := Option.some.inj (h1.symm.trans hrel)
  rw [h3]
  generalize cov.direction = d at h2
  cases h2 with
  | up k1 k2 k3 k4 k5 => exact .inl ⟨rfl, a, k2, k5 ▸ cited h k3.1 (.inl k4)⟩
  | down k1 k2 k3 k4 k5 => exact .inr ⟨rfl, k5 ▸ cited h k1 (.inr k4)⟩

/-- **C148** At the place that an error of tracing names there is the reference that it is about. -/
theorem C148_errors {env : Env} {w : World} {config : Config} {base : Path} {c : Controller} {tg : TracedGraph}
    (h : Controller.new env w config base = .ok c) (ht : trace c.graph = .ok tg) :
    (∀ r up loc, .coversUnknownRequirement r up loc ∈ tg.errors → ∃ a, Owns c.graph a r ∧ CitedAt env w config c.graph a loc up) ∧
    (∀ r low loc, .dependOnUnknownRequirement r low loc ∈ tg.errors → ∃ a, Owns c.graph a r ∧ CitedAt env w config c.graph a loc low) ∧
    (∀ u l t loc, .coveredWithWrongTitle u l t loc ∈ tg.errors → ∃ a, Owns c.graph a l ∧ CitedAt env w config c.graph a loc u.id) ∧
    (∀ u l t loc, .dependWithWrongTitle u l t loc ∈ tg.errors → ∃ a, Defines c.graph a u ∧ CitedAt env w config c.graph a loc l.id) ∧
    (∀ r loc, .referencedWithoutTitle r loc ∈ tg.errors → ∃ a, CitedAt env w config c.graph a loc r.id) := by
  have hk := (C18_consistent h).1
  refine ⟨fun r up loc he => ?_, fun r low loc he => ?_, fun u l t loc he => ?_, fun u l t loc he => ?_, fun r loc he => ?_⟩
  · obtain ⟨⟨a, h1⟩, ⟨pre, ref, post, h2, rfl, rfl, _⟩, _⟩ := (C04_covers_unknown hk ht r up loc).1 he
    exact ⟨a, h1, cited h h1.1 (.inl (by rw [h2]; simp))⟩
  · obtain ⟨⟨a, h1⟩, ⟨pre, ref, post, h2, rfl, rfl, _⟩, _⟩ := (C05_depends_unknown hk ht r low loc).1 he
    exact ⟨a, h1, cited h h1.1 (.inr (by rw [h2]; simp))⟩
  · obtain ⟨rel, _, a, ref, h2, _, _, rfl⟩ := (C06_covers_title hk ht u l t loc).1 he
    cases h2 with
    | up k1 k2 k3 k4 k5 => exact ⟨a, k3, k5 ▸ cited h k3.1 (.inl k4)⟩
  · obtain ⟨rel, _, a, ref, h2, _, _, rfl⟩ := (C06_depends_title hk ht u l t loc).1 he
    cases h2 with
    | down k1 k2 k3 k4 k5 => exact ⟨_, k1, k5 ▸ cited h k1 (.inr k4)⟩
  · obtain ⟨rel, _, a, u, l, ref, d, art, h2, _, rfl, _, h3⟩ := (C07_untitled hk ht r loc).1 he
    rcases h3 with ⟨rfl, _, rfl⟩ | ⟨rfl, _, rfl⟩
    · cases h2 with
      | down k1 k2 k3 k4 k5 => exact ⟨_, k5 ▸ cited h k1 (.inr k4)⟩
    · cases h2 with
      | up k1 k2 k3 k4 k5 => exact ⟨a, k5 ▸ cited h k3.1 (.inl k4)⟩

theorem pathsMean_mem {env : Env} {w : World} {parser : ArtefactParser} {fs : List Path} {reqs : List Requirement} {errs : List Error}
    (h : PathsMean env w parser fs reqs errs) :
    (∀ r ∈ reqs, ∃ p ∈ fs, ∃ file reqs errs, env.os.openFile w p = .ok file ∧ FileMeans env p file parser reqs errs ∧ r ∈ reqs) ∧
    ∀ e ∈ errs, ∃ p ∈ fs, (∃ t, e = .io p t) ∨
      ∃ file reqs errs, env.os.openFile w p = .ok file ∧ FileMeans env p file parser reqs errs ∧ e ∈ errs := by
  induction h with
  | nil => exact ⟨by simp, by simp⟩
  | cons h1 _ ih =>
    constructor
    · intro r hr
      rcases List.mem_append.1 hr with hr | hr
      · cases h1 with
        | closed => cases hr
        | opened k1 k2 => exact ⟨_, List.mem_cons_self, _, _, _, k1, k2, hr⟩
      · obtain ⟨p, k1, k2⟩ := ih.1 r hr
        exact ⟨p, List.mem_cons_of_mem _ k1, k2⟩
    · intro e he
      rcases List.mem_append.1 he with he | he
      · cases h1 with
        | closed => exact ⟨_, List.mem_cons_self, .inl ⟨_, List.mem_singleton.1 he⟩⟩
        | opened k1 k2 => exact ⟨_, List.mem_cons_self, .inr ⟨_, _, _, k1, k2, he⟩⟩
      · obtain ⟨p, k1, k2⟩ := ih.2 e he
        exact ⟨p, List.mem_cons_of_mem _ k1, k2⟩

theorem allMarks_error {debug : List Rs.Tok → Str} {path : Path} {os : List Occ} {es : List Entry} {errs : List Error}
    (h : AllMarks debug path os es errs) : ∀ e ∈ errs, ∃ o ∈ os, ∃ line column msg, IsMark o.mac ∧
      Mistake debug o.mac line column msg ∧ e = .format ⟨path, some (.lineAndColumn line column)⟩ msg := by
  induction h with
  | nil => intro e he; cases he
  | other _ _ ih => intro e he; obtain ⟨o, m1, m2⟩ := ih e he; exact ⟨o, List.mem_cons_of_mem _ m1, m2⟩
  | good _ _ _ ih => intro e he; obtain ⟨o, m1, m2⟩ := ih e he; exact ⟨o, List.mem_cons_of_mem _ m1, m2⟩
  | bad n1 n2 _ ih =>
    intro e he
    rcases List.mem_cons.1 he with rfl | he
    · exact ⟨_, List.mem_cons_self, _, _, _, n1, n2, rfl⟩
    · obtain ⟨o, m1, m2⟩ := ih e he; exact ⟨o, List.mem_cons_of_mem _ m1, m2⟩

/-- What is wrong with a file is wrong where it says. -/
theorem file_error_places {env : Env} {w : World} {p : Path} {file : File} {parser : ArtefactParser} {reqs : List Requirement}
    {errs : List Error} (ho : env.os.openFile w p = .ok file) (h : FileMeans env p file parser reqs errs) (hj : parser ≠ .json) :
    (∀ loc m, .format loc m ∈ errs → loc.file = p ∧ WrongAt env w parser loc) ∧
    (∀ loc a id, .duplicateAttribute loc a id ∈ errs → loc.file = p ∧ parser = .markdown ∧
      ∃ n, loc.locationInFile = some (.line n) ∧ InLineOf env w loc.file n a) ∧
    (∀ r s, .duplicateRequirement r s ∉ errs) ∧ ∀ r, .requirementWithoutTitle r ∉ errs := by
  have hres := h
  rw [← C81_file] at hres
  cases h with
  | markdown h1 h2 h3 h4 h5 =>
    have hl := (readLines_iff _ _ _).1 h1
    have hp : Md.parse env.U file.lines p = .ok (reqs, _) := hres
    rw [hl] at hp
    have key := (C36_locations env.U _ p reqs _ _ hp h3).2
    refine ⟨fun loc m he => ?_, fun loc a id he => ?_, fun r s he => key _ he, fun r he => key _ he⟩
    · obtain ⟨l, ⟨k, rfl, k2⟩, _⟩ := key _ he
      exact ⟨rfl, k + 1, rfl, file, _, _, _, l, ho, h1, h3, Nat.succ_pos _, k2, List.nil_infix⟩
    · obtain ⟨k, j, l, v, rfl, k2, ⟨c, low, rest, nl, rfl, _, _, _, rfl, _⟩, _⟩ := key _ he
      exact ⟨rfl, rfl, k + 1, rfl, file, _, _, _, _, ho, h1, h3, Nat.succ_pos _, k2, ⟨[], ':' :: rest ++ nl, by simp⟩⟩
  | mono => exact ⟨by simp, by simp, by simp, by simp⟩
  | monoNoName => exact ⟨by simp, by simp, by simp, by simp⟩
  | rust h1 h2 =>
    cases h2 with
    | unreadable => exact ⟨by simp, by simp, by simp, by simp⟩
    | syntaxError k1 k2 =>
      refine ⟨fun loc m he => ?_, by simp, by simp, by simp⟩
      simp only [List.mem_singleton, Error.format.injEq] at he
      obtain ⟨rfl, rfl⟩ := he
      exact ⟨rfl, file, _, ho, h1, k1, .inl ⟨_, _, _, k2, rfl⟩⟩
    | marks k1 k2 k3 k4 =>
      have key := allMarks_error k3
      refine ⟨fun loc m he => ?_, fun loc a id he => ?_, fun r s he => ?_, fun r he => ?_⟩
      · obtain ⟨o, m1, line, column, msg, m2, m3, m4⟩ := key _ he
        cases m4
        exact ⟨rfl, file, _, ho, h1, k1, .inr ⟨_, o, k2, m1, m2, line, column, _, m3, rfl⟩⟩
      · obtain ⟨_, _, _, _, _, _, _, m4⟩ := key _ he; cases m4
      · obtain ⟨_, _, _, _, _, _, _, m4⟩ := key _ he; cases m4
      · obtain ⟨_, _, _, _, _, _, _, m4⟩ := key _ he; cases m4
  | json => exact absurd rfl hj
  | jsonWrong => exact absurd rfl hj

/-- **C148** The errors of an artefact: what is wrong is at the place in a listed file, and two requirements with the same id
stand where the error says. -/
theorem C148_artefact_errors {env : Env} {w : World} {config : Config} {base : Path} {c : Controller}
    (h : Controller.new env w config base = .ok c) {ac : ArtefactConfig} (hl : LastEntry config ac) {art : Artefact}
    (ha : c.graph.artefacts.get ac.id = some art) (hj : ac.parser ≠ .json) :
    (∀ loc m, .format loc m ∈ art.errors → loc.file ∈ art.files ∧ WrongAt env w ac.parser loc) ∧
    (∀ loc a id, .duplicateAttribute loc a id ∈ art.errors → loc.file ∈ art.files ∧
      ∃ n, loc.locationInFile = some (.line n) ∧ InLineOf env w loc.file n a) ∧
    (∀ r s, .duplicateRequirement r s ∈ art.errors → r.id = s.id ∧ r.location.file ∈ art.files ∧ s.location.file ∈ art.files ∧
      StandsAt env w ac.parser r.location r.id ∧ StandsAt env w ac.parser s.location s.id) ∧
    (∀ r, .requirementWithoutTitle r ∈ art.errors → r.location.file ∈ art.files ∧ StandsAt env w ac.parser r.location r.id) := by
  obtain ⟨ac', h1, h2, reqs, errs, untitled, h3⟩ := ((new_isInput h).artefacts _ art).1 ha
  obtain rfl := lastEntry_unique h1 hl h2
  rw [h3.errors]
  have hm := h3.means
  have hdup : ∀ r s, Error.duplicateRequirement r s ∈ duplicates reqs → r ∈ reqs ∧ s ∈ reqs ∧ r.id = s.id := by
    intro r s hd
    unfold duplicates at hd
    obtain ⟨i, _, hi⟩ := List.mem_filterMap.1 hd
    split at hi
    · cases hi
    · next again hg =>
      obtain ⟨first, hf, he⟩ := Option.map_eq_some_iff.1 hi
      cases he
      exact ⟨List.mem_of_mem_take (List.mem_of_find?_eq_some hf), List.mem_of_getElem? hg, by simpa using List.find?_some hf⟩
  have hdk : ∀ e ∈ duplicates reqs, ∃ r s, e = .duplicateRequirement r s := by
    intro e hd
    unfold duplicates at hd
    obtain ⟨i, _, hi⟩ := List.mem_filterMap.1 hd
    split at hi
    · cases hi
    · obtain ⟨first, hf, he⟩ := Option.map_eq_some_iff.1 hi
      exact ⟨_, _, he.symm⟩
  have hr : ∀ r ∈ reqs, r.location.file ∈ art.files ∧ StandsAt env w ac'.parser r.location r.id := by
    intro r hr
    generalize art.files = fs at hm
    cases hm with
    | files k1 k2 =>
      obtain ⟨p, m1, file, reqs', errs', m2, m3, m4⟩ := (pathsMean_mem k2).1 r hr
      obtain ⟨n1, n2, _⟩ := file_places m2 m3 m4 hj
      exact ⟨n1 ▸ m1, n2⟩
    | noPaths => cases hr
    | badPattern => cases hr
    | badMatch => cases hr
    | notOne => cases hr
  have he : ∀ e ∈ errs, (∀ loc m, e = .format loc m → loc.file ∈ art.files ∧ WrongAt env w ac'.parser loc) ∧
      (∀ loc a id, e = .duplicateAttribute loc a id → loc.file ∈ art.files ∧
        ∃ n, loc.locationInFile = some (.line n) ∧ InLineOf env w loc.file n a) ∧
      (∀ r s, e ≠ .duplicateRequirement r s) ∧ ∀ r, e ≠ .requirementWithoutTitle r := by
    intro e he
    generalize art.files = fs at hm
    cases hm with
    | files k1 k2 =>
      obtain ⟨p, m1, ⟨t, rfl⟩ | ⟨file, reqs', errs', m2, m3, m4⟩⟩ := (pathsMean_mem k2).2 e he
      · simp
      · obtain ⟨n1, n2, n3, n4⟩ := file_error_places m2 m3 hj
        refine ⟨?_, ?_, ?_, ?_⟩
        · rintro loc m rfl; exact ⟨(n1 loc m m4).1 ▸ m1, (n1 loc m m4).2⟩
        · rintro loc a id rfl; exact ⟨(n2 loc a id m4).1 ▸ m1, (n2 loc a id m4).2.2⟩
        · rintro r s rfl; exact n3 r s m4
        · rintro r rfl; exact n4 r m4
    | noPaths => simp only [List.mem_singleton] at he; subst he; simp
    | badPattern => simp only [List.mem_singleton] at he; subst he; simp
    | badMatch => simp only [List.mem_singleton] at he; subst he; simp
    | notOne => simp only [List.mem_singleton] at he; subst he; simp
  have hut : ∀ e ∈ untitled.map Error.requirementWithoutTitle, ∃ r ∈ reqs, e = .requirementWithoutTitle r := by
    intro e he
    obtain ⟨r, h1, rfl⟩ := List.mem_map.1 he
    have := ((h3.untitled r).1 h1).2.2
    rw [h3.requirements] at this
    exact ⟨r, List.mem_of_find?_eq_some this, rfl⟩
  refine ⟨fun loc m hm => ?_, fun loc a id hm => ?_, fun r s hm => ?_, fun r hm => ?_⟩
  all_goals
    rcases List.mem_append.1 hm with hm | hm
    · rcases List.mem_append.1 hm with hm | hm
      · first
          | exact (he _ hm).1 _ _ rfl
          | exact (he _ hm).2.1 _ _ _ rfl
          | exact absurd rfl ((he _ hm).2.2.1 _ _)
          | exact absurd rfl ((he _ hm).2.2.2 _)
      · first
          | (obtain ⟨k1, k2, k3⟩ := hdup _ _ hm
             exact ⟨k3, (hr _ k1).1, (hr _ k2).1, (hr _ k1).2, (hr _ k2).2⟩)
          | (obtain ⟨_, _, k⟩ := hdk _ hm; cases k)
    · obtain ⟨q, k1, k2⟩ := hut _ hm
      first
        | (cases k2; exact hr _ k1)
        | cases k2

namespace LeadsExample

open CtrlExample MovedExample

set_option synthInstance.maxSize 2000 in
set_option synthInstance.maxHeartbeats 200000 in
theorem started : ∃ c tg, Controller.new e (world files) config c!"p" = .ok c ∧ trace c.graph = .ok tg ∧
    tg.tracedRelations.map (·.covered) = [[⟨c!"REQ_A", c!"m::f", ⟨c!"p/a.rs", some (.lineAndColumn 3 8)⟩, .upwards⟩,
      ⟨c!"REQ_B", c!"m::f", ⟨c!"p/a.rs", some (.lineAndColumn 6 8)⟩, .upwards⟩]] ∧
    (⟨c!"m::(S as T)::g", c!"REQ_C", ⟨c!"p/a.rs", some (.lineAndColumn 8 8)⟩⟩ : Str × Str × Location) ∈
      tg.errors.filterMap (fun e => match e with | .coversUnknownRequirement r up loc => some (r.id, up, loc) | _ => none) ∧
    (c.graph.artefacts.get c!"REQ").map (·.errors) =
      some [.duplicateRequirement (heading c!"p/req.md" c!"REQ_A" c!"title a" 1) (heading c!"p/req.md" c!"REQ_A" c!"again" 2)] ∧
    (c.graph.artefacts.get c!"CODE").map (·.errors) =
      some [.format ⟨c!"p/a.rs", some (.lineAndColumn 5 8)⟩ c!"requirement_covered!() has no arguments",
        .io c!"/src/b.rs" c!"not found"] := by
  have h : ((Controller.new e (world files) config c!"p").toOption.bind (fun c => (trace c.graph).toOption.map fun tg =>
      (tg.tracedRelations.map (·.covered),
        tg.errors.filterMap (fun e => match e with | .coversUnknownRequirement r up loc => some (r.id, up, loc) | _ => none),
        (c.graph.artefacts.get c!"REQ").map (·.errors), (c.graph.artefacts.get c!"CODE").map (·.errors)))) =
      some ([[⟨c!"REQ_A", c!"m::f", ⟨c!"p/a.rs", some (.lineAndColumn 3 8)⟩, .upwards⟩,
        ⟨c!"REQ_B", c!"m::f", ⟨c!"p/a.rs", some (.lineAndColumn 6 8)⟩, .upwards⟩]],
        [⟨c!"m::(S as T)::g", c!"REQ_C", ⟨c!"p/a.rs", some (.lineAndColumn 8 8)⟩⟩],
        some [.duplicateRequirement (heading c!"p/req.md" c!"REQ_A" c!"title a" 1) (heading c!"p/req.md" c!"REQ_A" c!"again" 2)],
        some [.format ⟨c!"p/a.rs", some (.lineAndColumn 5 8)⟩ c!"requirement_covered!() has no arguments",
          .io c!"/src/b.rs" c!"not found"]) := by decide +kernel
  cases hn : Controller.new e (world files) config c!"p" with
  | error x => rw [hn] at h; cases h
  | ok c =>
    rw [hn] at h
    simp only [Except.toOption, Option.bind_some] at h
    cases ht : trace c.graph with
    | error x => rw [ht] at h; cases h
    | ok tg =>
      rw [ht] at h
      simp only [Option.map_some, Option.some.injEq, Prod.mk.injEq] at h
      obtain ⟨h1, h2, h3, h4⟩ := h
      exact ⟨c, tg, rfl, ht, h1, by rw [h2]; exact List.mem_cons_self, h3, h4⟩

theorem req_entry : LastEntry config requirements := ⟨[], [code, issue], rfl, by decide⟩

/-- The place of the coverage of `REQ_A` is that of a mark in the code. -/
example : ∃ c tg, Controller.new e (world files) config c!"p" = .ok c ∧ trace c.graph = .ok tg ∧
    ∃ tr ∈ tg.tracedRelations, ∃ a ∈ tr.relation.lower,
      CitedAt e (world files) config c.graph a ⟨c!"p/a.rs", some (.lineAndColumn 3 8)⟩ c!"REQ_A" := by
  obtain ⟨c, tg, h1, h2, h3, _⟩ := started
  refine ⟨c, tg, h1, h2, ?_⟩
  cases hr : tg.tracedRelations with
  | nil => rw [hr] at h3; cases h3
  | cons tr trs =>
    rw [hr] at h3
    simp only [List.map_cons, List.cons.injEq] at h3
    obtain ⟨_, k⟩ | ⟨k, _⟩ := C148_coverage h1 h2 (tr := tr) (by rw [hr]; exact List.mem_cons_self)
      (cov := ⟨c!"REQ_A", c!"m::f", ⟨c!"p/a.rs", some (.lineAndColumn 3 8)⟩, .upwards⟩) (by rw [h3.1]; exact List.mem_cons_self)
    · exact ⟨tr, List.mem_cons_self, k⟩
    · cases k

/-- The place of the unknown `REQ_C` is that of a mark in the code. -/
example : ∃ c, Controller.new e (world files) config c!"p" = .ok c ∧
    ∃ a, CitedAt e (world files) config c.graph a ⟨c!"p/a.rs", some (.lineAndColumn 8 8)⟩ c!"REQ_C" := by
  obtain ⟨c, tg, h1, h2, _, h4, _⟩ := started
  obtain ⟨x, h5, h6⟩ := List.mem_filterMap.1 h4
  split at h6
  · next r up loc =>
    simp only [Option.some.injEq, Prod.mk.injEq] at h6
    obtain ⟨_, rfl, rfl⟩ := h6
    obtain ⟨a, _, k⟩ := (C148_errors h1 h2).1 _ _ _ h5
    exact ⟨c, h1, a, k⟩
  · cases h6

/-- The two requirements `REQ_A` stand in the lines 1 and 2. -/
example : InLineOf e (world files) c!"p/req.md" 1 c!"REQ_A" ∧ InLineOf e (world files) c!"p/req.md" 2 c!"REQ_A" := by
  obtain ⟨c, tg, h1, h2, _, _, h5, _⟩ := started
  obtain ⟨art, h6, h7⟩ := Option.map_eq_some_iff.1 h5
  obtain ⟨_, _, _, ⟨n, k1, k2⟩, ⟨m, k3, k4⟩⟩ := (C148_artefact_errors h1 req_entry h6 (by decide)).2.2.1 _ _
    (by rw [h7]; exact List.mem_cons_self)
  cases k1; cases k3
  exact ⟨k2, k4⟩

/-- `REQ_B` stands in a line of the Markdown file. -/
example : ∃ c, Controller.new e (world files) config c!"p" = .ok c ∧ ∀ r, Defines c.graph c!"REQ" r →
    Listed c.graph c!"REQ" r.location.file ∧ StandsAt e (world files) .markdown r.location r.id := by
  obtain ⟨c, tg, h1, _⟩ := started
  exact ⟨c, h1, fun r hr => have k := C148_requirement h1 req_entry hr (by decide); ⟨k.1, k.2.1⟩⟩

end LeadsExample

end Reqtrace
