import Verif.Spec.CodeTree
import Verif.Props.TwoLayers
import Verif.Props.Glob

/-!
# C168: requirements in a Markdown document, marks in the Rust files of a directory tree
-/

namespace Reqtrace

open Spec RustLayout GlobText

namespace CodeTree

theorem matched_once {env : Env} {w : World} {there : Path → Prop} {base : Path} {ps : List Str} {fs : List Path}
    (h : Matched env w base ps fs) (hg : env.os.GlobWorks w there) (hb : PlainDirectory base) (hp : ∀ p ∈ ps, Proper p)
    (ho : ∀ p ∈ ps, ∀ fs : List Path, env.os.glob w (patternOf base p) = .ok (fs.map .ok) → fs.Nodup)
    (hd : ps.Pairwise fun p q => ∀ f, there f → Means base p f → ¬ Means base q f) :
    fs.Nodup ∧ ∀ f, f ∈ fs ↔ there f ∧ ∃ p ∈ ps, Means base p f := by
  induction h with
  | nil => simp
  | @cons p ps fs gs h1 _ ih =>
    obtain ⟨d1, d2⟩ := List.pairwise_cons.1 hd
    obtain ⟨i1, i2⟩ := ih (fun q hq => hp q (List.mem_cons_of_mem _ hq)) (fun q hq => ho q (List.mem_cons_of_mem _ hq)) d2
    obtain ⟨fs', h3, h4⟩ := C163_pattern_partial hg hb (hp p List.mem_cons_self)
    have : fs' = fs := by
      unfold Finds at h3
      rw [h1] at h3
      injection h3 with h3
      exact ((List.map_inj_right (fun _ _ h => by injection h)).1 h3).symm
    subst this
    refine ⟨List.nodup_append.2 ⟨ho p List.mem_cons_self _ h1, i1, fun a ha b hb' e => ?_⟩, fun f => ?_⟩
    · subst e
      obtain ⟨k1, k2⟩ := (h4 a).1 ha
      obtain ⟨-, q, k3, k4⟩ := (i2 a).1 hb'
      exact d1 q k3 a k1 k2 k4
    · rw [List.mem_append, h4, i2]
      constructor
      · rintro (⟨a, b⟩ | ⟨a, q, b, c⟩)
        · exact ⟨a, p, List.mem_cons_self, b⟩
        · exact ⟨a, q, List.mem_cons_of_mem _ b, c⟩
      · rintro ⟨a, q, b, c⟩
        rcases List.mem_cons.1 b with rfl | b
        · exact .inl ⟨a, c⟩
        · exact .inr ⟨a, q, b, c⟩

variable {env : Env} {w : World} {opt : Arguments} {there : Path → Prop} {config : Config} {upper code : ArtefactConfig}
  {reqs : List Requirement} {marks : Path → List Entry} {items : Path → List Requirement}

theorem marked (fs : List Path) (h : ∀ f ∈ fs, ∃ text forest,
    env.os.openFile w f = .ok ⟨Utf8.encode text, none⟩ ∧ IsCode text forest ∧
    AllMarks env.syn.debug f (occs f [] none forest) (marks f) [] ∧ Grouped (items f) (marks f)) :
    MarkedFiles env w fs (fs.flatMap marks) (fs.flatMap items) := by
  induction fs with
  | nil => exact .nil
  | cons f fs ih =>
    obtain ⟨t, fo, h1, h2, h3, h4⟩ := h f List.mem_cons_self
    exact .cons h1 h2 h3 h4 (ih fun g hg => h g (List.mem_cons_of_mem _ hg))

theorem ids_once (fs : List Path) (hn : fs.Nodup) (h1 : ∀ f ∈ fs, ((items f).map (·.id)).Nodup)
    (h2 : ∀ f ∈ fs, ∀ g ∈ fs, f ≠ g → ∀ i ∈ items f, ∀ j ∈ items g, i.id ≠ j.id) :
    ((fs.flatMap items).map (·.id)).Nodup := by
  induction fs with
  | nil => simp
  | cons f fs ih =>
    obtain ⟨n1, n2⟩ := List.nodup_cons.1 hn
    rw [List.flatMap_cons, List.map_append]
    refine List.nodup_append.2 ⟨h1 f List.mem_cons_self, ih n2 (fun g hg => h1 g (List.mem_cons_of_mem _ hg))
      (fun g hg k hk => h2 g (List.mem_cons_of_mem _ hg) k (List.mem_cons_of_mem _ hk)), ?_⟩
    intro a ha b hb
    obtain ⟨i, hi, rfl⟩ := List.mem_map.1 ha
    obtain ⟨j, hj, rfl⟩ := List.mem_map.1 hb
    obtain ⟨g, hg, hj⟩ := List.mem_flatMap.1 hj
    exact h2 f List.mem_cons_self g (List.mem_cons_of_mem _ hg) (fun e => n1 (e ▸ hg)) i hi j hj

/-- The files that are meant, in some order, are a project of two artefacts. -/
theorem flat (hg : env.os.GlobWorks w there) (h : CodeTree env w opt there config upper code reqs marks items) :
    ∃ fs : List Path, (∀ f, f ∈ fs ↔ IsMeant there opt.baseDir code f) ∧
      TwoLayers env w opt config upper code reqs (fs.flatMap marks) (fs.flatMap items) := by
  obtain ⟨fs, h1, h2⟩ := matched_means hg h.directory code.paths h.patterns.2
  obtain ⟨hn, -⟩ := matched_once h1 hg h.directory h.patterns.2 h.once h.disjoint
  refine ⟨fs, h2, h.text, h.version, h.artefacts, h.relations, h.different, h.markdown, h.rust, h.top, h.document, h.ids,
    h.plain, h.titles, ⟨fs, .inl ⟨h.rust, h.patterns.1, h1⟩, marked fs fun f hf => h.files f ((h2 f).1 hf)⟩,
    ids_once fs hn (fun f hf => h.itemIds f ((h2 f).1 hf))
      (fun f hf g hg' => h.filesApart f g ((h2 f).1 hf) ((h2 g).1 hg')), h.untitled, ?_⟩
  intro r hr i hi
  obtain ⟨f, hf, hi⟩ := List.mem_flatMap.1 hi
  exact h.apart f ((h2 f).1 hf) r hr i hi

/-- C168: the program ends with the exit status 0 if and only if there are requirements, each of them is named by a mark
in a file that the patterns mean, and all marks in these files name requirements. -/
theorem C168_green (ht : env.ReadsToml) (hs : ReadsRust env.syn) (hg : env.os.GlobWorks w there)
    (h : CodeTree env w opt there config upper code reqs marks items)
    (hj : ∃ n ∈ requested config opt, ∃ j, (config.jobs.getD .empty).get n = some j ∧ j.query = .trace ∧
      j.setReturnCode ≠ some false) (hm : (Main.main env opt w).1 ≤ 1) :
    (Main.main env opt w).1 = 0 ↔
      reqs ≠ [] ∧ (∀ r ∈ reqs, ∃ f, IsMeant there opt.baseDir code f ∧ ∃ e ∈ marks f, e.ref.id = r.id) ∧
        ∀ f, IsMeant there opt.baseDir code f → ∀ e ∈ marks f, ∃ r ∈ reqs, Names upper e r := by
  obtain ⟨fs, h1, h2⟩ := flat hg h
  rw [TwoLayers.C166_green ht hs h2 hj hm]
  refine and_congr_right fun _ => and_congr ?_ ?_
  · refine forall_congr' fun r => forall_congr' fun _ => ?_
    constructor
    · rintro ⟨e, he, hi⟩
      obtain ⟨f, hf, he⟩ := List.mem_flatMap.1 he
      exact ⟨f, (h1 f).1 hf, e, he, hi⟩
    · rintro ⟨f, hf, e, he, hi⟩
      exact ⟨e, List.mem_flatMap.2 ⟨f, (h1 f).2 hf, he⟩, hi⟩
  · constructor
    · intro k f hf e he
      exact k e (List.mem_flatMap.2 ⟨f, (h1 f).2 hf, he⟩)
    · intro k e he
      obtain ⟨f, hf, he⟩ := List.mem_flatMap.1 he
      exact k f ((h1 f).1 hf) e he

/-- C168: the requirements that the program reports as not covered are those that no mark names in any file that the
patterns mean. -/
theorem C168_gaps (hs : ReadsRust env.syn) (hg : env.os.GlobWorks w there)
    (h : CodeTree env w opt there config upper code reqs marks items) {c : Controller}
    (hn : Controller.new env w config opt.baseDir = .ok c) :
    ∃ tr, c.tracedGraph.tracedRelations = [tr] ∧
      ∀ id, id ∈ tr.uncovered ↔
        ∃ r ∈ reqs, r.id = id ∧ ∀ f, IsMeant there opt.baseDir code f → ∀ e ∈ marks f, e.ref.id ≠ id := by
  obtain ⟨fs, h1, h2⟩ := flat hg h
  obtain ⟨tr, k1, k2⟩ := TwoLayers.C166_gaps hs h2 hn
  refine ⟨tr, k1, fun id => (k2 id).trans ?_⟩
  refine exists_congr fun r => and_congr_right fun _ => and_congr_right fun _ => ?_
  constructor
  · intro k f hf e he
    exact k e (List.mem_flatMap.2 ⟨f, (h1 f).2 hf, he⟩)
  · intro k e he
    obtain ⟨f, hf, he⟩ := List.mem_flatMap.1 he
    exact k f ((h1 f).1 hf) e he

end CodeTree

namespace CodeTreeExample

open CtrlExample TwoLayersExample CodeTree

def code : ArtefactConfig := ⟨c!"CODE", [c!"src/**/*.rs"], .rust, none, none⟩

def config : Config := { TwoLayersExample.config with artefacts := [upper, code] }

def listing : List Path := [c!"p/src/b.rs", c!"p/src/x/c.rs", c!"p/src/x/c.md", c!"q/src/d.rs", c!"p/req.md"]

/-- The readers in place of the libraries, and the files that are there -/
def e : Env := { TwoLayersExample.e with os := { os with glob := GlobExample.library listing } }

theorem e_works (w : World) : e.os.GlobWorks w (· ∈ listing) := GlobExample.genv_works listing w

def b : Str := c!"fn f() { requirement_covered!(REQ_A, \"title a\"); }"
def c : Str := c!"mod m { fn g() { requirement_covered!(REQ_B, \"title b\"); } }"

/-- The mark in `q/src/d.rs` is not below the base directory. -/
def w (c : Str) : World := world [(c!"requirements.toml", TomlText.written config), (c!"p/req.md", md), (c!"p/src/b.rs", b),
  (c!"p/src/x/c.rs", c), (c!"q/src/d.rs", c!"fn h() { requirement_covered!(REQ_C); }")]

def fb : Rs.Forest := .item (.fn c!"f") 1 3 (.mac (mark 1 9 c!"REQ_A" c!"title a") .nil) .nil
def fc : Rs.Forest :=
  .item (.mod c!"m") 1 4 (.item (.fn c!"g") 1 11 (.mac (mark 1 17 c!"REQ_B" c!"title b") .nil) .nil) .nil

def pos (p : Path) (column : Nat) : Location := ⟨p, some (.lineAndColumn 1 column)⟩

def markA : Entry := ⟨[c!"f"], some (pos c!"p/src/b.rs" 3), ⟨c!"REQ_A", some c!"title a", pos c!"p/src/b.rs" 9⟩⟩
def markB : Entry :=
  ⟨[c!"m", c!"g"], some (pos c!"p/src/x/c.rs" 11), ⟨c!"REQ_B", some c!"title b", pos c!"p/src/x/c.rs" 17⟩⟩
def f : Requirement := ⟨c!"f", none, pos c!"p/src/b.rs" 3, [markA.ref], [], [], .empty⟩
def g : Requirement := ⟨c!"m::g", none, pos c!"p/src/x/c.rs" 11, [markB.ref], [], [], .empty⟩

def marks (p : Path) : List Entry := if p == c!"p/src/b.rs" then [markA] else [markB]
def items (p : Path) : List Requirement := if p == c!"p/src/b.rs" then [f] else [g]

theorem meant_iff (x : Path) :
    IsMeant (· ∈ listing) args.baseDir code x ↔ x = c!"p/src/b.rs" ∨ x = c!"p/src/x/c.rs" := by
  obtain ⟨fs, h1, h2⟩ := matched_means (e_works (w c)) GlobExample.proper_p [c!"src/**/*.rs"]
    (fun q hq => by cases List.mem_singleton.1 hq; exact GlobExample.proper_tree)
  refine (h2 x).symm.trans ?_
  cases h1 with
  | @cons _ _ fs gs k1 k2 =>
    cases k2
    have k0 : e.os.glob (w c) (patternOf c!"p" c!"src/**/*.rs") = .ok (([c!"p/src/b.rs", c!"p/src/x/c.rs"] : List Path).map .ok) := by
      decide +kernel
    rw [k0] at k1
    injection k1 with k1
    have k1 := ((List.map_inj_right (fun _ _ h => by injection h)).1 k1)
    rw [← k1]
    simp

theorem meant (x : Path) (h : IsMeant (· ∈ listing) args.baseDir code x) : x = c!"p/src/b.rs" ∨ x = c!"p/src/x/c.rs" :=
  (meant_iff x).1 h

theorem grouped_b : Grouped [f] [markA] := by
  refine ⟨[(f, [markA])], rfl, rfl, ?_, ?_⟩
  · intro x hx
    cases List.mem_singleton.1 hx
    refine ⟨rfl, fun y hy => ?_, ⟨_, _, rfl, rfl⟩, rfl, rfl, rfl, rfl⟩
    cases List.mem_singleton.1 hy
    exact .one _
  · intro a r s b h
    have := congrArg List.length h
    simp at this
    omega

theorem grouped_c : Grouped [g] [markB] := by
  refine ⟨[(g, [markB])], rfl, rfl, ?_, ?_⟩
  · intro x hx
    cases List.mem_singleton.1 hx
    refine ⟨rfl, fun y hy => ?_, ⟨_, _, rfl, rfl⟩, rfl, rfl, rfl, rfl⟩
    cases List.mem_singleton.1 hy
    exact .cons _ (.one _)
  · intro a r s b h
    have := congrArg List.length h
    simp at this
    omega

theorem project : CodeTree e (w c) args (· ∈ listing) config upper code reqs marks items where
  text := ⟨TomlText.written config, by decide +kernel,
    C162_written config (fun v h => by cases h; decide) (fun m h => by cases h; decide +kernel)⟩
  version := fun v h => by cases h; rfl
  artefacts := .inl rfl
  relations := rfl
  different := by decide
  markdown := rfl
  rust := rfl
  top := by decide
  document := ⟨c!"req.md", rfl, md, by decide +kernel, (C81_file ..).1 (by decide +kernel)⟩
  ids := by decide
  plain := by decide
  titles := by decide
  untitled := by decide
  directory := GlobExample.proper_p
  patterns := ⟨by decide, fun q hq => by cases List.mem_singleton.1 hq; exact GlobExample.proper_tree⟩
  once := fun q hq fs h => by
    cases List.mem_singleton.1 hq
    have k0 : e.os.glob (w c) (patternOf c!"p" c!"src/**/*.rs") = .ok (([c!"p/src/b.rs", c!"p/src/x/c.rs"] : List Path).map .ok) := by
      decide +kernel
    have h := k0.symm.trans h
    injection h with h
    rw [← (List.map_inj_right (fun _ _ h => by injection h)).1 h]
    decide
  disjoint := List.pairwise_singleton _ _
  files := fun x hx => by
    rcases meant x hx with rfl | rfl
    · exact ⟨b, fb, by decide +kernel, (RustText.C164_reader ..).1 (by decide +kernel),
        .good (o := ⟨_, _, mark 1 9 c!"REQ_A" c!"title a"⟩) rfl
          (.inr (.inr ⟨_, _, _, _, rfl, rfl, rfl, ⟨by decide, by decide, by decide⟩, rfl⟩)) .nil, grouped_b⟩
    · exact ⟨c, fc, by decide +kernel, (RustText.C164_reader ..).1 (by decide +kernel),
        .good (o := ⟨_, _, mark 1 17 c!"REQ_B" c!"title b"⟩) rfl
          (.inr (.inr ⟨_, _, _, _, rfl, rfl, rfl, ⟨by decide, by decide, by decide⟩, rfl⟩)) .nil, grouped_c⟩
  itemIds := fun x hx => by rcases meant x hx with rfl | rfl <;> decide
  filesApart := fun x y hx hy => by
    rcases meant x hx with rfl | rfl <;> rcases meant y hy with rfl | rfl <;> decide
  apart := fun x hx => by rcases meant x hx with rfl | rfl <;> decide

example : (Main.main e args (w c)).1 = 0 :=
  (C168_green (env := e) e_toml e_rust (e_works _) project ⟨c!"trace", by decide, _, by rfl, by decide, by decide⟩ (by decide +kernel)).2
    ⟨by decide, fun r hr => by
      simp only [reqs, List.mem_cons, List.not_mem_nil, or_false] at hr
      rcases hr with rfl | rfl
      · exact ⟨c!"p/src/b.rs", (meant_iff _).2 (.inl rfl), markA, List.mem_singleton.2 rfl, rfl⟩
      · exact ⟨c!"p/src/x/c.rs", (meant_iff _).2 (.inr rfl), markB, List.mem_singleton.2 rfl, rfl⟩,
    fun x hx y hy => by
      rcases meant x hx with rfl | rfl
      · cases List.mem_singleton.1 hy
        exact ⟨_, List.mem_cons_self, rfl, .inl ⟨rfl, by decide⟩⟩
      · cases List.mem_singleton.1 hy
        exact ⟨_, List.mem_cons_of_mem _ List.mem_cons_self, rfl, .inl ⟨rfl, by decide⟩⟩⟩

/-- Without the mark, and with a mark for nothing: not green -/
example : (Main.main e args (w c!"fn g() { }")).1 = 1 ∧
    (Main.main e args (w (c ++ c!"fn h() { requirement_covered!(REQ_C, \"title c\"); }"))).1 = 1 := by
  decide +kernel

end CodeTreeExample

end Reqtrace
