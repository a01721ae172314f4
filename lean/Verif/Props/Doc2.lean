import Verif.Spec.Doc2
import Verif.Props.Doc
import Verif.Props.Run
import Verif.Props.Markdown2
import Verif.Props.MonoReq

/-!
# C108 to C112: what the documents say about the graph, ids and versions
-/

namespace Reqtrace

open Spec

/-! ## C108 -/

/-- **C108 as listed**: there are no loops in the graph, so no requirement is covered by itself, directly or through
others. -/
def C108_statement : Prop :=
  ∀ (env : Env) (w : World) (config : Config) (base : Path) (c : Controller), Controller.new env w config base = .ok c →
    NoLoops (DirectlyAbove c.graph.relations) ∧ NoLoops (SaysCovered c.tracedGraph)

namespace Doc2

theorem owner {g : Graph} {a : ArtefactId} {r : Requirement} (h : Owns g a r) : Defines g a r := h.1

/-- A chain of coverages is a chain of artefacts. -/
theorem chain {g : Graph} {tg : TracedGraph} (hk : Keyed g) (ht : trace g = .ok tg) (hu : IdsUnique g) {x y : RequirementId}
    (h : Steps (SaysCovered tg) x y) : ∃ a b r s, Steps (DirectlyAbove g.relations) a b ∧ Defines g a r ∧ Defines g b s ∧
      r.id = x ∧ s.id = y := by
  have one : ∀ x y, SaysCovered tg x y → ∃ a b r s, DirectlyAbove g.relations a b ∧ Defines g a r ∧ Defines g b s ∧
      r.id = x ∧ s.id = y := by
    rintro x y ⟨tr, htr, c, hc, rfl, rfl⟩
    obtain ⟨i, hi⟩ := List.getElem?_of_mem htr
    obtain ⟨rel, a, upper, lower, ref, h1, h2, h3⟩ := (C01_coverage_exact hk ht hi c).1 hc
    have hm := List.mem_of_getElem? h1
    rw [h3]
    generalize c.direction = d at h2
    cases h2 with
    | down k1 k2 k3 => exact ⟨rel.upper, a, upper, lower, ⟨rel, hm, rfl, k2⟩, k1, k3.1, rfl, rfl⟩
    | up k1 k2 k3 => exact ⟨rel.upper, a, upper, lower, ⟨rel, hm, rfl, k2⟩, k1, k3.1, rfl, rfl⟩
  induction h with
  | one h =>
    obtain ⟨a, b, r, s, h1, h2⟩ := one _ _ h
    exact ⟨a, b, r, s, .one h1, h2⟩
  | more _ h ih =>
    obtain ⟨a, b, r, s, h1, h2, h3, h4, h5⟩ := ih
    obtain ⟨a', b', r', s', k1, k2, k3, k4, k5⟩ := one _ _ h
    obtain rfl := hu b a' s r' h3 k2 (by rw [h5, k4])
    exact ⟨a, b', r, s', .more h1 k1, h2, k3, h4, k5⟩

end Doc2

/-- **C108** If the configured relations have no loops and no id is defined in two artefacts, no requirement is covered by
itself, directly or through others. -/
theorem C108_no_loops_partial {env : Env} {w : World} {config : Config} {base : Path} {c : Controller}
    (h : Controller.new env w config base = .ok c) (hl : NoLoops (DirectlyAbove config.relations)) (hu : IdsUnique c.graph) :
    NoLoops (SaysCovered c.tracedGraph) := by
  obtain ⟨g, hg, hc⟩ := (C82_controller env w config base c).1 h
  have hk := (C18_consistent h).1
  obtain ⟨_, _, _, _, ht, _⟩ := new_ok h
  have hrel : c.graph.relations = config.relations := (new_isInput h).relations
  intro x hx
  obtain ⟨a, b, r, s, h1, h2, h3, h4, h5⟩ := Doc2.chain hk ht hu hx
  obtain rfl := hu a b r s h2 h3 (by rw [h4, h5])
  rw [hrel] at h1
  exact hl a h1

namespace Doc2Example
open CtrlExample

/-- An artefact that is above itself. -/
def loop : Config := ⟨none, [requirements], [⟨c!"REQ", [c!"REQ"]⟩], none, none⟩

def loopWorld : World := world [(c!"p/req.md", c!"# REQ_A: a\n\nCovers:\n* REQ_A: a\n")]

theorem loop_covered : ((Controller.new (env .nil loop) loopWorld loop c!"p").toOption.map (fun c => (c.graph.relations,
    c.tracedGraph.tracedRelations.map (fun tr => tr.covered.map (fun k => (k.upper, k.lower)))))) =
    some ([⟨c!"REQ", [c!"REQ"]⟩], [[(c!"REQ_A", c!"REQ_A")]]) := by decide +kernel

end Doc2Example

/-- C108 is false as listed: a configuration with a loop is accepted, and then a requirement can cover itself. -/
theorem C108_false : ¬ C108_statement := by
  intro h
  have hl := Doc2Example.loop_covered
  cases hn : Controller.new (CtrlExample.env .nil Doc2Example.loop) Doc2Example.loopWorld Doc2Example.loop c!"p" with
  | error e => rw [hn] at hl; cases hl
  | ok c =>
    rw [hn] at hl
    have hl := Option.some.inj hl
    refine (h _ _ _ _ c hn).1 c!"REQ" (.one ⟨⟨c!"REQ", [c!"REQ"]⟩, ?_, rfl, List.mem_cons_self⟩)
    rw [(Prod.mk.inj hl).1]
    exact List.mem_cons_self

/-- **C108** Loops of artefacts are accepted: whether a configuration is accepted depends on which artefacts are
configured, not on how the relations connect them. -/
theorem C108_loops_accepted {env : Env} {w : World} {config : Config} {base : Path} {c : Controller}
    (h : Controller.new env w config base = .ok c) {rels : List Relation}
    (hr : ∀ rel ∈ rels, ∀ a, a = rel.upper ∨ a ∈ rel.lower → ∃ ac ∈ config.artefacts, ac.id = a) :
    ∃ c', Controller.new env w { config with relations := rels } base = .ok c' := by
  have h1 := (C18_returns_iff env w config base).1 ⟨c, h⟩
  exact (C18_returns_iff env w { config with relations := rels } base).2
    ⟨fun rel hrel => ⟨hr rel hrel _ (.inl rfl), fun a ha => hr rel hrel a (.inr ha)⟩, h1.2⟩

/-- The relations of the example project have no loop. -/
example : NoLoops (DirectlyAbove CtrlExample.config.relations) := by
  have key : ∀ a b, Steps (DirectlyAbove CtrlExample.config.relations) a b → a = c!"REQ" ∧ b = c!"CODE" := by
    intro a b h
    induction h with
    | one h =>
      obtain ⟨rel, h1, rfl, h2⟩ := h
      obtain rfl := List.mem_singleton.1 h1
      exact ⟨rfl, List.mem_singleton.1 h2⟩
    | more _ h ih =>
      obtain ⟨rel, h1, rfl, h2⟩ := h
      obtain rfl := List.mem_singleton.1 h1
      exact ⟨ih.1, List.mem_singleton.1 h2⟩
  intro a h
  obtain ⟨rfl, h2⟩ := key a a h
  exact absurd h2 (by decide)

namespace Doc2Example
open CtrlExample

/-- Two artefacts of Markdown files, one above the other. -/
def chain : Config := ⟨none, [requirements, ⟨c!"DES", [c!"des.md"], .markdown, none, none⟩], [⟨c!"REQ", [c!"DES"]⟩], none, none⟩

def chainWorld : World := world [(c!"p/req.md", c!"# REQ_A: a\n"), (c!"p/des.md", c!"# DES_A: a\n\nCovers:\n* REQ_A: a\n")]

end Doc2Example

open Doc2Example in
/-- All hypotheses of `C108_no_loops_partial` hold for it, and there is a coverage. -/
example : ∃ c, Controller.new (CtrlExample.env .nil chain) chainWorld chain c!"p" = .ok c ∧ IdsUnique c.graph ∧
    SaysCovered c.tracedGraph c!"REQ_A" c!"DES_A" := by
  have h : ((Controller.new (CtrlExample.env .nil chain) chainWorld chain c!"p").toOption.map (fun c =>
      (c.graph.artefacts.entries.map (fun e => (e.1, e.2.requirements.keys)),
        c.tracedGraph.tracedRelations.map (fun tr => tr.covered.map (fun k => (k.upper, k.lower)))))) =
      some ([(c!"DES", [c!"DES_A"]), (c!"REQ", [c!"REQ_A"])], [[(c!"REQ_A", c!"DES_A")]]) := by decide +kernel
  cases hn : Controller.new (CtrlExample.env .nil chain) chainWorld chain c!"p" with
  | error e => rw [hn] at h; cases h
  | ok c =>
    rw [hn] at h
    obtain ⟨h1, h2⟩ := Prod.mk.inj (Option.some.inj h)
    refine ⟨c, rfl, ?_, ?_⟩
    · have key : ∀ a r, Defines c.graph a r → (a, r.id) ∈ [(c!"DES", c!"DES_A"), (c!"REQ", c!"REQ_A")] := by
        rintro a r ⟨art, k1, k2⟩
        have m1 : (a, art.requirements.keys) ∈ c.graph.artefacts.entries.map (fun e => (e.1, e.2.requirements.keys)) :=
          List.mem_map.2 ⟨_, (BMap.get_eq_some_iff _ _ _).1 k1, rfl⟩
        have m2 : r.id ∈ art.requirements.keys := List.mem_map.2 ⟨_, (BMap.get_eq_some_iff _ _ _).1 k2, rfl⟩
        rw [h1] at m1
        simp only [List.mem_cons, Prod.mk.injEq, List.not_mem_nil, or_false] at m1
        rcases m1 with ⟨rfl, e⟩ | ⟨rfl, e⟩ <;> (rw [e] at m2; rw [List.mem_singleton.1 m2]; simp)
      intro a b r s hr hs e
      have k1 := key a r hr
      have k2 := key b s hs
      rw [e] at k1
      revert k1 k2
      generalize s.id = i
      simp only [List.mem_cons, Prod.mk.injEq, List.not_mem_nil, or_false]
      rintro (⟨rfl, rfl⟩ | ⟨rfl, rfl⟩) (⟨rfl, k⟩ | ⟨rfl, k⟩)
      · rfl
      · exact absurd k (by decide)
      · exact absurd k (by decide)
      · rfl
    · have : [(c!"REQ_A", c!"DES_A")] ∈ c.tracedGraph.tracedRelations.map (fun tr => tr.covered.map (fun k => (k.upper, k.lower))) := by
        rw [h2]; exact List.mem_cons_self
      obtain ⟨tr, m1, m2⟩ := List.mem_map.1 this
      have : (c!"REQ_A", c!"DES_A") ∈ tr.covered.map (fun k => (k.upper, k.lower)) := by rw [m2]; exact List.mem_cons_self
      obtain ⟨k, m3, m4⟩ := List.mem_map.1 this
      exact ⟨tr, m1, k, m3, (Prod.mk.inj m4).1, (Prod.mk.inj m4).2⟩

/-! ## C109 -/

/-- **C109 as listed**: when reading the output, each input is clearly identifiable: two runs all of whose reports are equal
have read files with the same content. -/
def C109_statement : Prop :=
  ∀ (env : Env) (w w' : World) (config : Config) (base : Path) (c c' : Controller),
    Controller.new env w config base = .ok c → Controller.new env w' config base = .ok c' →
    (∀ query format text, Report env.fmt c.graph query format text ↔ Report env.fmt c'.graph query format text) →
    ∀ a art, c.graph.artefacts.get a = some art → ∀ p ∈ art.files, SameFile env w w' p

/-- **C109** The JSON trace identifies all that was understood of the input: the artefacts with their files, requirements and
errors, and the relations; also if the projects are different ones. -/
theorem C109_json_partial {env : Env} {w w' : World} {config config' : Config} {base base' : Path} {c c' : Controller} {text : Str}
    (h : Controller.new env w config base = .ok c) (h' : Controller.new env w' config' base' = .ok c')
    (ht : Report env.fmt c.graph .trace .json text) (ht' : Report env.fmt c'.graph .trace .json text) : c.graph = c'.graph := by
  obtain ⟨hk, hr⟩ := C18_consistent h
  obtain ⟨hk', hr'⟩ := C18_consistent h'
  obtain ⟨_, _, _, _, hg, _⟩ := new_ok h
  obtain ⟨_, _, _, _, hg', _⟩ := new_ok h'
  have h1 : Fmt.tracing env.fmt c.tracedGraph .json = Out.put text := (C85_report hk hg hr env.fmt .trace .json text).2 ht
  have h2 : Fmt.tracing env.fmt c'.tracedGraph .json = Out.put text := (C85_report hk' hg' hr' env.fmt .trace .json text).2 ht'
  have h3 : c.tracedGraph = c'.tracedGraph := C65_trace env.fmt _ _ (by rw [h1, h2])
  obtain ⟨a1, _, a3⟩ := C11_frame hk hg
  obtain ⟨b1, _, b3⟩ := C11_frame hk' hg'
  have e1 : c.graph.artefacts = c'.graph.artefacts := by rw [← a1, ← b1, h3]
  have e2 : c.graph.relations = c'.graph.relations := by rw [← a3, ← b3, h3]
  cases hc : c.graph
  cases hc' : c'.graph
  rw [hc, hc'] at e1 e2
  cases e1
  cases e2
  rfl

namespace Doc2Example
open CtrlExample

/-- One file with a preface. -/
def single : Config := ⟨none, [requirements], [], none, none⟩
def oldWorld : World := world [(c!"p/req.md", c!"old preface\n# REQ_A: a\n")]
def newWorld : World := world [(c!"p/req.md", c!"new preface\n# REQ_A: a\n")]

theorem prefaces : (Controller.new (env .nil single) oldWorld single c!"p").toOption.map (·.graph) =
      (Controller.new (env .nil single) newWorld single c!"p").toOption.map (·.graph) ∧
    ((Controller.new (env .nil single) oldWorld single c!"p").toOption.bind (fun c => c.graph.artefacts.get c!"REQ")).map (·.files) =
      some [c!"p/req.md"] := by decide +kernel

end Doc2Example

/-- C109 is false as listed: no report says anything about text outside of requirements. -/
theorem C109_false : ¬ C109_statement := by
  intro h
  obtain ⟨hg, hf⟩ := Doc2Example.prefaces
  cases h1 : Controller.new (CtrlExample.env .nil Doc2Example.single) Doc2Example.oldWorld Doc2Example.single c!"p" with
  | error e => rw [h1] at hf; cases hf
  | ok c =>
    cases h2 : Controller.new (CtrlExample.env .nil Doc2Example.single) Doc2Example.newWorld Doc2Example.single c!"p" with
    | error e => rw [h1, h2] at hg; cases hg
    | ok c' =>
      rw [h1, h2] at hg
      rw [h1] at hf
      have hg : c.graph = c'.graph := Option.some.inj hg
      simp only [Except.toOption, Option.bind_some, Option.map_eq_some_iff] at hf
      obtain ⟨art, h3, h4⟩ := hf
      have := h _ _ _ _ _ c c' h1 h2 (by rw [hg]; exact fun _ _ _ => Iff.rfl) _ art h3 c!"p/req.md" (by rw [h4]; exact List.mem_cons_self)
      revert this
      unfold SameFile
      decide +kernel

/-! ## C110 -/

/-- **C110** The recommended ids are ids, whatever the tables of Unicode say. -/
theorem C110_ident (U : Unicode) {id : Str} (h : Recommended id) : IsIdent U id := by
  obtain ⟨a, m, z, rfl, ha, hm, hc, hz⟩ := h
  have ascii : ∀ c : Char, c.isAlphanum = true ∨ c = '_' → c.toNat < 128 := by
    intro c hc
    rcases hc with hc | rfl
    · simp only [Char.isAlphanum, Char.isAlpha, Char.isUpper, Char.isLower, Char.isDigit, Bool.or_eq_true, Bool.and_eq_true,
        decide_eq_true_eq, UInt32.le_iff_toNat_le] at hc
      have hn : c.val.toNat = c.toNat := rfl
      simp at hc
      omega
    · decide
  refine ⟨a, m ++ [z], by simp, by simp, ?_, ?_⟩
  · have : a.isAlphanum = true := by simp [Char.isAlphanum, ha]
    rw [U.start_ascii a (ascii a (.inl this))]
    exact ha
  · intro d hd
    have : d.isAlphanum = true ∨ d = '_' := by
      rcases List.mem_append.1 hd with hd | hd
      · exact hc d hd
      · rw [List.mem_singleton.1 hd]; exact .inl hz
    rw [U.continue_ascii d (ascii d this)]
    simpa using this

/-- **C110** They are read in Markdown: a heading with a recommended id, covering another one. -/
theorem C110_markdown (U : Unicode) (path : Path) {id ref title : Str} (h : Recommended id) (hr : Recommended ref) (ht : OneLine title) :
    ∃ r, Md.parse U ⟨c!"## " ++ id ++ c!": " ++ title ++ c!"\n\nCovers:\n*   " ++ ref ++ c!"\n\n", none⟩ path = .ok ([r], []) ∧
      r.id = id ∧ r.title = some title ∧ r.location = ⟨path, some (.line 1)⟩ ∧
      r.covers = [⟨ref, none, ⟨path, some (.line 4)⟩⟩] ∧ r.depends = [] := by
  obtain ⟨rs, h1, h2⟩ := C37_round_trip U path [⟨2, id, title, [], [(ref, none)], [], []⟩] (by
    intro it hit
    rw [List.mem_singleton] at hit
    subst hit
    exact ⟨Nat.zero_lt_succ 1, C110_ident U h, ht, by simp, by simp, by
      intro r hr'
      simp only [List.append_nil, List.mem_singleton] at hr'
      subst hr'
      exact ⟨C110_ident U hr, by simp⟩, by simp, by simp⟩)
  cases h2 with
  | cons hi hn =>
    cases hn
    refine ⟨_, ?_, hi.id, hi.title, hi.location, ?_, ?_⟩
    · rw [← h1]
      simp [Item.write, writeDesc, writeRefs, writeRef, List.replicate]
    · rw [hi.covers]; rfl
    · rw [hi.depends]; rfl

/-- **C110** They are read in mono-requirement files. -/
theorem C110_mono (U : Unicode) {path name stem id title : Str} (hname : FileName path name) (hstem : Stem name stem)
    (h : Recommended id) (ht : OneLine title) :
    MonoReq.parse U ⟨title ++ c!"\n=> " ++ id ++ c!"\n", none⟩ path = .ok
      ([⟨stem, some title, ⟨path, none⟩, [], [⟨id, none, ⟨path, some (.line 2)⟩⟩], [], .empty⟩], []) := by
  have hn : '\n' ∉ id := by
    obtain ⟨c, t, rfl, -, h1, h2⟩ := C110_ident U h
    intro hm
    have : U.xidContinue '\n' = true := by
      rcases List.mem_cons.1 hm with e | hm
      · rw [e]; exact U.start_continue _ h1
      · exact h2 _ hm
    rw [U.continue_ascii _ (by decide)] at this
    exact absurd this (by decide)
  refine C42_one_requirement U _ path name stem [title, c!"=> " ++ id] _ hname hstem ?_ ?_
  · have h1 : TextLines (c!"=> " ++ id ++ c!"\n" ++ []) [c!"=> " ++ id] := by
      refine .lf _ (by simpa using hn) ?_ .nil
      obtain ⟨a, m, z, rfl, -, -, -, hz⟩ := h
      intro hl
      simp only [List.getLast?_append, List.getLast?_singleton, Option.some_or, Option.some.injEq] at hl
      rw [hl] at hz
      exact absurd hz (by decide)
    have h2 := TextLines.lf title (rest := c!"=> " ++ id ++ c!"\n") (ls := [c!"=> " ++ id]) ht.2.1 ?_ (by simpa using h1)
    · simpa using h2
    · intro hl
      obtain ⟨u, hu⟩ := List.getLast?_eq_some_iff.1 hl
      exact absurd (ht.2.2.2 _ _ hu) (by decide)
  · refine .take (id := id) (title := none) ⟨[], _, rfl, ⟨C110_ident U h, c!" ", [], ?_, by simp, .inl ⟨by simp [Blank], rfl⟩⟩, ?_⟩ (.nil _)
    · simp [Blank]; decide
    · intro pre' s' _ hlt; simp at hlt

/-- The ids that the README gives as examples. -/
example : ∀ id ∈ [c!"UC_DeleteAllFiles", c!"REQ123", c!"REQ_123", c!"IMP_FuncName", c!"UT_FuncName", c!"IT_Req_123", c!"REQ_123_v1",
    c!"REQ"], Recommended id := by
  have key : ∀ id ∈ [c!"UC_DeleteAllFiles", c!"REQ123", c!"REQ_123", c!"IMP_FuncName", c!"UT_FuncName", c!"IT_Req_123",
      c!"REQ_123_v1", c!"REQ"], ∃ a m z, id = a :: m ++ [z] ∧ a.isAlpha = true ∧ m ≠ [] ∧
        (∀ c ∈ m, (c.isAlphanum || c == '_') = true) ∧ z.isAlphanum = true := by
    intro id hid
    refine ⟨id.headD 'x', id.tail.dropLast, id.getLastD 'x', ?_⟩
    revert id
    decide +kernel
  intro id hid
  obtain ⟨a, m, z, h1, h2, h3, h4, h5⟩ := key id hid
  exact ⟨a, m, z, h1, h2, h3, fun c hc => by simpa using h4 c hc, h5⟩

/-! ## C111 -/

/-- **C111** A configuration of a version other than 0 is refused: the program ends with 2, says which version that is, and
does nothing else. -/
theorem C111_refused {env : Env} {opt : Arguments} {w w' : World} {f : File} {t : Json} {config : Config} {v code : Nat}
    (h : env.os.openFile w opt.configFile = .ok f) (hf : f.failure = none) (ht : env.tomlTree f.bytes = .ok t)
    (hc : ConfigText.IsConfig t config) (hv : config.version = some v) (h0 : v ≠ 0) (hm : Main.main env opt w = (code, w')) :
    code = 2 ∧ w' = { w with stderr := w.stderr ++ Utf8.encode (opt.configFile ++ c!" has unknown version " ++ natStr v ++ c!"\n") } := by
  have : ProgramEnds env opt w 2 { w with stderr := w.stderr ++ Utf8.encode (opt.configFile ++ c!" has unknown version " ++ natStr v ++ c!"\n") } :=
    .badConfig (.version h hf ht hc hv (by omega)) ⟨by simp, rfl, rfl, rfl, rfl⟩
  rw [← C84_program, hm] at this
  cases this
  exact ⟨rfl, rfl⟩

/-- Version 3 of the example configuration. -/
example : (Main.main (CtrlExample.env .nil { CtrlExample.config with version := some 3 }) ⟨c!"requirements.toml", c!"p", []⟩
      (CtrlExample.world CtrlExample.files)).1 = 2 ∧
    (Main.main (CtrlExample.env .nil { CtrlExample.config with version := some 3 }) ⟨c!"requirements.toml", c!"p", []⟩
      (CtrlExample.world CtrlExample.files)).2.stderr = Utf8.encode c!"requirements.toml has unknown version 3\n" := by
  decide +kernel

/-! ## C112 -/

/-- The uncovered requirements of a relation. -/
theorem Doc2.uncovered {g : Graph} {tg : TracedGraph} (hk : Keyed g) (h : trace g = .ok tg) {tr : TracedRelation}
    (htr : tr ∈ tg.tracedRelations) (id : RequirementId) :
    id ∈ tr.uncovered ↔ (∃ r, Defines g tr.relation.upper r ∧ r.id = id) ∧
      ¬ ∃ a upper lower ref dir, Establishes g tr.relation a upper lower ref dir ∧ upper.id = id := by
  obtain ⟨art, h1, -, h2⟩ := C02_uncovered_complement hk h htr
  obtain ⟨i, hi⟩ := List.getElem?_of_mem htr
  have hrel := (C01_coverage_list hk h hi).1
  rw [h2]
  refine and_congr ⟨?_, ?_⟩ ⟨?_, ?_⟩
  · rintro ⟨r, hr⟩
    have := hk.requirement _ _ h1 _ _ hr
    exact ⟨r, ⟨art, h1, by rw [this]; exact hr⟩, this⟩
  · rintro ⟨r, ⟨art', h3, h4⟩, rfl⟩
    rw [h1] at h3
    cases h3
    exact ⟨r, h4⟩
  · rintro hc ⟨a, upper, lower, ref, dir, he, rfl⟩
    exact hc ⟨upper.id, lower.id, ref.location, dir⟩
      ((C01_coverage_exact hk h hi _).2 ⟨_, a, upper, lower, ref, hrel, he, rfl⟩) rfl
  · rintro hn c hc rfl
    obtain ⟨rel, a, upper, lower, ref, h3, h4, h5⟩ := (C01_coverage_exact hk h hi c).1 hc
    rw [hrel] at h3
    cases h3
    exact hn ⟨a, upper, lower, ref, _, h4, by rw [h5]⟩

/-- **C112** A requirement is uncovered along a relation to several artefacts exactly if it is uncovered along each of the
relations to one of them. -/
theorem C112_some_lower {g : Graph} {tg : TracedGraph} (hk : Keyed g) (h : trace g = .ok tg) {tr : TracedRelation}
    (htr : tr ∈ tg.tracedRelations) (id : RequirementId) :
    id ∈ tr.uncovered ↔ (∃ r, Defines g tr.relation.upper r ∧ r.id = id) ∧ ∀ d ∈ tr.relation.lower, ∃ tg' tr',
      trace { g with relations := [⟨tr.relation.upper, [d]⟩] } = .ok tg' ∧ tg'.tracedRelations = [tr'] ∧ id ∈ tr'.uncovered := by
  have hrel : tr.relation ∈ g.relations := by
    obtain ⟨i, hi⟩ := List.getElem?_of_mem htr
    exact List.mem_of_getElem? (C01_coverage_list hk h hi).1
  have key : ∀ d ∈ tr.relation.lower, ∃ tg' tr', trace { g with relations := [⟨tr.relation.upper, [d]⟩] } = .ok tg' ∧
      tg'.tracedRelations = [tr'] ∧ (id ∈ tr'.uncovered ↔ (∃ r, Defines g tr.relation.upper r ∧ r.id = id) ∧
        ¬ ∃ upper lower ref dir, Establishes g tr.relation d upper lower ref dir ∧ upper.id = id) := by
    intro d hd
    have hk' : Keyed { g with relations := [⟨tr.relation.upper, [d]⟩] } := keyed_congr (g := g) rfl hk
    have ht : trace { g with relations := [⟨tr.relation.upper, [d]⟩] } = .ok (traced { g with relations := [⟨tr.relation.upper, [d]⟩] }) := by
      refine (trace_ok_iff hk' _).2 ⟨?_, rfl⟩
      intro rel hm
      obtain rfl := List.mem_singleton.1 hm
      obtain ⟨art, h1, h2⟩ := ((trace_ok_iff hk tg).1 h).1 _ hrel
      refine ⟨art, h1, fun hne a ha => h2 hne a ?_⟩
      obtain rfl := List.mem_singleton.1 ha
      exact hd
    have hf := (C11_frame hk' ht).2.2
    refine ⟨_, tracedRelation { g with relations := [⟨tr.relation.upper, [d]⟩] } ⟨tr.relation.upper, [d]⟩, ht, rfl, ?_⟩
    rw [Doc2.uncovered hk' ht (List.mem_singleton.2 rfl)]
    refine and_congr Iff.rfl (not_congr ⟨?_, ?_⟩)
    · rintro ⟨a, upper, lower, ref, dir, he, hid⟩
      refine ⟨upper, lower, ref, dir, ?_, hid⟩
      cases he with
      | down k1 k2 k3 k4 k5 =>
        obtain rfl := List.mem_singleton.1 k2
        exact .down k1 hd k3 k4 k5
      | up k1 k2 k3 k4 k5 =>
        obtain rfl := List.mem_singleton.1 k2
        exact .up k1 hd k3 k4 k5
    · rintro ⟨upper, lower, ref, dir, he, hid⟩
      refine ⟨d, upper, lower, ref, dir, ?_, hid⟩
      cases he with
      | down k1 k2 k3 k4 k5 => exact .down k1 List.mem_cons_self k3 k4 k5
      | up k1 k2 k3 k4 k5 => exact .up k1 List.mem_cons_self k3 k4 k5
  rw [Doc2.uncovered hk h htr]
  constructor
  · rintro ⟨h1, h2⟩
    refine ⟨h1, fun d hd => ?_⟩
    obtain ⟨tg', tr', k1, k2, k3⟩ := key d hd
    refine ⟨tg', tr', k1, k2, k3.2 ⟨h1, ?_⟩⟩
    rintro ⟨upper, lower, ref, dir, he, hid⟩
    exact h2 ⟨d, upper, lower, ref, dir, he, hid⟩
  · rintro ⟨h1, h2⟩
    refine ⟨h1, ?_⟩
    rintro ⟨a, upper, lower, ref, dir, he, hid⟩
    have ha : a ∈ tr.relation.lower := by cases he <;> assumption
    obtain ⟨tg', tr', k1, k2, k3⟩ := key a ha
    obtain ⟨tg2, tr2, m1, m2, m3⟩ := h2 a ha
    rw [k1] at m1
    cases m1
    rw [k2] at m2
    cases m2
    exact (k3.1 m3).2 ⟨upper, lower, ref, dir, he, hid⟩

/-- **C112** A relation to no artefact is reported as unused, and all requirements of its upper artefact as uncovered. -/
theorem C112_no_lower {g : Graph} {tg : TracedGraph} (hk : Keyed g) (h : trace g = .ok tg) {tr : TracedRelation}
    (htr : tr ∈ tg.tracedRelations) (hl : tr.relation.lower = []) :
    .unusedRelation tr.relation ∈ tg.errors ∧ ∀ r, Defines g tr.relation.upper r → r.id ∈ tr.uncovered := by
  have hno : ∀ a upper lower ref dir, ¬ Establishes g tr.relation a upper lower ref dir := by
    intro a upper lower ref dir he
    have ha : a ∈ tr.relation.lower := by cases he <;> assumption
    rw [hl] at ha
    cases ha
  constructor
  · have hc : tr.covered = [] := by
      obtain ⟨i, hi⟩ := List.getElem?_of_mem htr
      rw [List.eq_nil_iff_forall_not_mem]
      intro c hc
      obtain ⟨rel, a, upper, lower, ref, h3, h4, h5⟩ := (C01_coverage_exact hk h hi c).1 hc
      rw [(C01_coverage_list hk h hi).1] at h3
      cases h3
      exact hno _ _ _ _ _ h4
    have : tr.relation ∈ (tg.tracedRelations.filter (fun tr => tr.covered.isEmpty)).map (·.relation) :=
      List.mem_map.2 ⟨tr, List.mem_filter.2 ⟨htr, by rw [hc]; rfl⟩, rfl⟩
    rw [← C09_unused_relation hk h] at this
    obtain ⟨e, he, hm⟩ := List.mem_filterMap.1 this
    cases e <;> simp at hm
    rw [← hm]
    exact he
  · intro r hr
    refine (Doc2.uncovered hk h htr _).2 ⟨⟨r, hr, rfl⟩, ?_⟩
    rintro ⟨a, upper, lower, ref, dir, he, _⟩
    exact hno _ _ _ _ _ he

/-- Along a relation to two artefacts, one requirement is covered by one of the two and the other one by none; along a
relation to none, both are uncovered. -/
example : (trace { Example.graph with relations := [⟨c!"UP", [c!"LO", c!"ZZ"]⟩, ⟨c!"UP", []⟩] }).toOption.map
      (fun tg => tg.tracedRelations.map (·.uncovered)) = some [[c!"U2"], [c!"U1", c!"U2"]] ∧
    (trace { Example.graph with relations := [⟨c!"UP", [c!"ZZ"]⟩] }).toOption.map
      (fun tg => tg.tracedRelations.map (·.uncovered)) = some [[c!"U1", c!"U2"]] := by decide +kernel

end Reqtrace
