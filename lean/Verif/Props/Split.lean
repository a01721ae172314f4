import Verif.Spec.Split
import Verif.Props.Jobs
import Verif.Props.Rerun
import Verif.Props.Input

/-!
# C157: one relation with more lower artefacts or two relations
-/

namespace Reqtrace

open Spec

namespace Split

section
variable {g : Graph} {rel : Relation} {ls ms : List ArtefactId} {pre post : List Relation} (hu : LowerUnion rel ls ms)
  (hr : g.relations = pre ++ rel :: post)

/-- The graph with two relations. -/
abbrev two (g : Graph) (pre : List Relation) (rel : Relation) (ls ms : List ArtefactId) (post : List Relation) : Graph :=
  { g with relations := splitRelations pre rel ls ms post }

theorem relEvents_same (rs : List Relation) (r : Relation) : relEvents { g with relations := rs } r = relEvents g r := rfl

include hu in
theorem mem_reqEvents (u : Requirement) (e : Event) : e ∈ reqEvents g rel u ↔
    e ∈ reqEvents g { rel with lower := ls } u ∨ e ∈ reqEvents g { rel with lower := ms } u := by
  unfold reqEvents downEvents upEvents
  simp only [List.mem_append, List.mem_flatMap, hu _]
  constructor
  · rintro (⟨ref, h1, b, h2 | h2, h3⟩ | ⟨b, h2 | h2, h3⟩)
    · exact .inl (.inl ⟨ref, h1, b, h2, h3⟩)
    · exact .inr (.inl ⟨ref, h1, b, h2, h3⟩)
    · exact .inl (.inr ⟨b, h2, h3⟩)
    · exact .inr (.inr ⟨b, h2, h3⟩)
  · rintro ((⟨ref, h1, b, h2, h3⟩ | ⟨b, h2, h3⟩) | (⟨ref, h1, b, h2, h3⟩ | ⟨b, h2, h3⟩))
    · exact .inl ⟨ref, h1, b, .inl h2, h3⟩
    · exact .inr ⟨b, .inl h2, h3⟩
    · exact .inl ⟨ref, h1, b, .inr h2, h3⟩
    · exact .inr ⟨b, .inr h2, h3⟩

include hu in
theorem mem_relEvents (e : Event) : e ∈ relEvents g rel ↔
    e ∈ relEvents g { rel with lower := ls } ∨ e ∈ relEvents g { rel with lower := ms } := by
  unfold relEvents
  simp only [List.mem_flatMap, mem_reqEvents hu]
  constructor
  · rintro ⟨u, h1, h2 | h2⟩
    · exact .inl ⟨u, h1, h2⟩
    · exact .inr ⟨u, h1, h2⟩
  · rintro (⟨u, h1, h2⟩ | ⟨u, h1, h2⟩)
    · exact ⟨u, h1, .inl h2⟩
    · exact ⟨u, h1, .inr h2⟩

include hu in
theorem relEvents_nil : relEvents g rel = [] ↔
    relEvents g { rel with lower := ls } = [] ∧ relEvents g { rel with lower := ms } = [] := by
  simp only [List.eq_nil_iff_forall_not_mem, mem_relEvents hu]
  constructor
  · intro h; exact ⟨fun e he => h e (.inl he), fun e he => h e (.inr he)⟩
  · rintro ⟨h1, h2⟩ e (he | he)
    · exact h1 e he
    · exact h2 e he

include hu hr in
theorem mem_allEvents (e : Event) : e ∈ allEvents (two g pre rel ls ms post) ↔ e ∈ allEvents g := by
  unfold allEvents
  rw [hr]
  show e ∈ (splitRelations pre rel ls ms post).flatMap (relEvents g) ↔ _
  unfold splitRelations
  simp only [List.flatMap_append, List.flatMap_cons, List.mem_append, mem_relEvents hu, or_assoc]

end

end Split

/-- **C157** Two relations with the same upper artefact say together what one with all of their lower artefacts says, but
require that every requirement is covered along both of them. -/
theorem C157_split {g : Graph} {rel : Relation} {ls ms : List ArtefactId} {pre post : List Relation} {tg tg' : TracedGraph}
    (hk : Keyed g) (hu : LowerUnion rel ls ms) (hr : g.relations = pre ++ rel :: post) (h : trace g = .ok tg)
    (h' : trace { g with relations := splitRelations pre rel ls ms post } = .ok tg') : SplitResult pre.length rel tg tg' := by
  have hk' : Keyed (Split.two g pre rel ls ms post) := ⟨hk.1, hk.2⟩
  obtain ⟨_, rfl⟩ := (trace_ok_iff hk tg).1 h
  obtain ⟨_, rfl⟩ := (trace_ok_iff hk' tg').1 h'
  have hrel : (traced g).tracedRelations = pre.map (tracedRelation g) ++ tracedRelation g rel :: post.map (tracedRelation g) := by
    show g.relations.map _ = _
    rw [hr]; simp
  have hrel' : (traced (Split.two g pre rel ls ms post)).tracedRelations = pre.map (tracedRelation g) ++
      tracedRelation g { rel with lower := ls } :: tracedRelation g { rel with lower := ms } :: post.map (tracedRelation g) := by
    show (splitRelations pre rel ls ms post).map (tracedRelation g) = _
    unfold splitRelations
    simp
  have hlen : pre.length = (pre.map (tracedRelation g)).length := by simp
  refine ⟨?_, ?_, ⟨tracedRelation g rel, tracedRelation g { rel with lower := ls }, tracedRelation g { rel with lower := ms }, ?_, ?_, ?_, rfl, ?_, ?_⟩, ?_, ?_⟩
  · rw [hrel, hrel', hlen, List.take_left' rfl, List.take_left' rfl]
  · rw [hrel, hrel', hlen, List.drop_append, List.drop_append]
    simp
  · rw [hrel, hlen, List.getElem?_append_right (Nat.le_refl _)]; simp
  · rw [hrel', hlen, List.getElem?_append_right (Nat.le_refl _)]; simp
  · rw [hrel', hlen, List.getElem?_append_right (Nat.le_succ _)]; simp
  · intro c
    show c ∈ (relEvents g rel).map Event.coverage ↔ c ∈ (relEvents g _).map Event.coverage ∨ c ∈ (relEvents g _).map Event.coverage
    simp only [List.mem_map, Split.mem_relEvents hu]
    constructor
    · rintro ⟨e, h1 | h1, h2⟩
      · exact .inl ⟨e, h1, h2⟩
      · exact .inr ⟨e, h1, h2⟩
    · rintro (⟨e, h1, h2⟩ | ⟨e, h1, h2⟩)
      · exact ⟨e, .inl h1, h2⟩
      · exact ⟨e, .inr h1, h2⟩
  · show uncovered g rel = (uncovered g { rel with lower := ls }).filter (fun id => id ∈ uncovered g { rel with lower := ms })
    unfold uncovered
    rw [List.filter_map, List.filter_filter]
    show ((upperReqs g rel).filter _).map _ = ((upperReqs g rel).filter _).map _
    congr 1
    refine List.filter_congr fun u hu' => ?_
    rw [Bool.eq_iff_iff]
    simp only [List.isEmpty_iff, Function.comp, Bool.and_eq_true, decide_eq_true_eq, List.mem_map, List.mem_filter]
    have hnil : reqEvents g rel u = [] ↔ reqEvents g { rel with lower := ls } u = [] ∧ reqEvents g { rel with lower := ms } u = [] := by
      simp only [List.eq_nil_iff_forall_not_mem, Split.mem_reqEvents hu]
      constructor
      · intro h; exact ⟨fun e he => h e (.inl he), fun e he => h e (.inr he)⟩
      · rintro ⟨h1, h2⟩ e (he | he)
        · exact h1 e he
        · exact h2 e he
    rw [hnil, and_comm]
    refine and_congr_left fun _ => ?_
    constructor
    · intro hn
      exact ⟨u, ⟨hu', hn⟩, rfl⟩
    · rintro ⟨v, ⟨h1, h2⟩, h3⟩
      have : v = u := by
        have d1 : Defines g rel.upper v := (mem_upperReqs hk _ _).1 h1
        have d2 : Defines g rel.upper u := (mem_upperReqs hk _ _).1 hu'
        obtain ⟨art, a1, a2⟩ := d1
        obtain ⟨art', b1, b2⟩ := d2
        rw [a1] at b1
        cases b1
        rw [h3, b2] at a2
        exact (Option.some.inj a2).symm
      rw [← this]; exact h2
  · show derivedMap (Split.two g pre rel ls ms post) = derivedMap g
    unfold derivedMap
    congr 1
    refine List.map_congr_left fun e _ => ?_
    unfold derived
    rw [show owned (Split.two g pre rel ls ms post) e.1 = owned g e.1 from rfl]
    congr 2
    refine List.filter_congr fun id _ => ?_
    rw [Bool.eq_iff_iff, List.all_eq_true, List.all_eq_true]
    simp only [Split.mem_allEvents hu hr]
  · intro e hne
    rw [mem_errors hk, mem_errors hk']
    simp only [Split.mem_allEvents hu hr]
    refine or_congr Iff.rfl (or_congr ?_ Iff.rfl)
    have cut : ∀ r, ((∃ ev ∈ relEvents g r, e ∈ titleErrors g r ev) ∨ (relEvents g r = [] ∧ e = .unusedRelation r)) ↔
        ∃ ev ∈ relEvents g r, e ∈ titleErrors g r ev := fun r => ⟨fun h => h.elim id fun h => absurd h.2 (hne r), .inl⟩
    show (∃ r ∈ splitRelations pre rel ls ms post, (∃ ev ∈ relEvents g r, e ∈ titleErrors g r ev) ∨ _) ↔ _
    rw [hr]
    constructor
    · rintro ⟨r, h1, h2⟩
      obtain ⟨ev, h3, h4⟩ := (cut r).1 h2
      unfold splitRelations at h1
      simp only [List.mem_append, List.mem_cons] at h1
      rcases h1 with h1 | rfl | rfl | h1
      · exact ⟨r, by simp [h1], (cut r).2 ⟨ev, h3, h4⟩⟩
      · exact ⟨rel, by simp, .inl ⟨ev, (Split.mem_relEvents hu ev).2 (.inl h3), h4⟩⟩
      · exact ⟨rel, by simp, .inl ⟨ev, (Split.mem_relEvents hu ev).2 (.inr h3), h4⟩⟩
      · exact ⟨r, by simp [h1], (cut r).2 ⟨ev, h3, h4⟩⟩
    · rintro ⟨r, h1, h2⟩
      obtain ⟨ev, h3, h4⟩ := (cut r).1 h2
      simp only [List.mem_append, List.mem_cons] at h1
      rcases h1 with h1 | rfl | h1
      · exact ⟨r, by simp [splitRelations, h1], .inl ⟨ev, h3, h4⟩⟩
      · rcases (Split.mem_relEvents hu ev).1 h3 with h5 | h5
        · exact ⟨_, by simp [splitRelations], .inl ⟨ev, h5, h4⟩⟩
        · exact ⟨{ r with lower := ms }, by simp [splitRelations], .inl ⟨ev, h5, h4⟩⟩
      · exact ⟨r, by simp [splitRelations, h1], .inl ⟨ev, h3, h4⟩⟩

/-- **C157** So a project without findings for the two relations has none for the one. -/
theorem C157_verdict {g : Graph} {rel : Relation} {ls ms : List ArtefactId} {pre post : List Relation} {tg tg' : TracedGraph}
    (hk : Keyed g) (hu : LowerUnion rel ls ms) (hr : g.relations = pre ++ rel :: post) (h : trace g = .ok tg)
    (h' : trace { g with relations := splitRelations pre rel ls ms post } = .ok tg') : TraceProblem tg → TraceProblem tg' := by
  have hk' : Keyed (Split.two g pre rel ls ms post) := ⟨hk.1, hk.2⟩
  have hs := C157_split hk hu hr h h'
  obtain ⟨tr, tr1, tr2, t1, t2, t3, -, t4, t5⟩ := hs.relation
  unfold TraceProblem
  rw [(C11_frame hk h).1, (C11_frame hk' h').1]
  rintro (⟨e, he⟩ | hx | ⟨t, h1, id, h2⟩ | hx)
  · by_cases hun : ∃ r, e = .unusedRelation r
    · obtain ⟨r, rfl⟩ := hun
      left
      obtain ⟨_, rfl⟩ := (trace_ok_iff hk tg).1 h
      obtain ⟨_, rfl⟩ := (trace_ok_iff hk' tg').1 h'
      rw [mem_errors hk] at he
      rcases he with ⟨_, _, he, -⟩ | ⟨r0, h1, ⟨ev, -, h2⟩ | ⟨h2, h3⟩⟩ | ⟨_, _, _, he, -⟩ | ⟨_, _, _, he, -⟩
      · cases he
      · exfalso
        revert h2
        unfold titleErrors
        split <;> split <;> simp
      · cases h3
        rw [hr] at h1
        simp only [List.mem_append, List.mem_cons] at h1
        have key : ∀ r ∈ splitRelations pre rel ls ms post, relEvents g r = [] → ∃ e, e ∈ (traced (Split.two g pre rel ls ms post)).errors :=
          fun r h1 h2 => ⟨.unusedRelation r, (mem_errors hk' _).2 (.inr (.inl ⟨r, h1, .inr ⟨h2, rfl⟩⟩))⟩
        rcases h1 with h1 | rfl | h1
        · exact key r (by simp [splitRelations, h1]) h2
        · exact key { r with lower := ls } (by simp [splitRelations]) ((Split.relEvents_nil hu).1 h2).1
        · exact key r (by simp [splitRelations, h1]) h2
      · cases he
      · cases he
    · exact .inl ⟨e, (hs.errors e fun r hr => hun ⟨r, hr⟩).2 he⟩
  · exact .inr (.inl hx)
  · right; right; left
    have hsplit : ∀ (l : List TracedRelation) (n : Nat) (x : TracedRelation), l[n]? = some x → ∀ y ∈ l, y ∈ l.take n ∨ y = x ∨ y ∈ l.drop (n + 1) := by
      intro l n x hx y hy
      rw [← List.take_append_drop n l, List.drop_eq_getElem?_toList_append, hx] at hy
      simpa using hy
    rcases hsplit _ _ _ t1 t h1 with h3 | rfl | h3
    · rw [← hs.before] at h3
      exact ⟨t, List.mem_of_mem_take h3, id, h2⟩
    · rw [t5] at h2
      exact ⟨tr1, List.mem_of_getElem? t2, id, (List.mem_filter.1 h2).1⟩
    · rw [← hs.after] at h3
      exact ⟨t, List.mem_of_mem_drop h3, id, h2⟩
  · rw [hs.derived]
    exact .inr (.inr (.inr hx))

/-- **C157** The project with two relations loads as before and has the same artefacts. -/
theorem C157_project {env : Env} {w : World} {config : Config} {base : Path} {c : Controller} {rel : Relation} {ls ms : List ArtefactId}
    {pre post : List Relation} (hu : LowerUnion rel ls ms) (hr : config.relations = pre ++ rel :: post)
    (h : Controller.new env w config base = .ok c) :
    ∃ c', Controller.new env w { config with relations := splitRelations pre rel ls ms post } base = .ok c' ∧
      c'.graph = { c.graph with relations := splitRelations pre rel ls ms post } ∧ c'.jobs = c.jobs ∧ c'.defaultJobs = c.defaultJobs := by
  obtain ⟨g, hg, rfl⟩ := (C82_controller env w config base c).1 h
  have hroot : ∀ a, IsRoot { config with relations := splitRelations pre rel ls ms post } a ↔ IsRoot config a := by
    intro a
    unfold IsRoot
    show (∀ r ∈ splitRelations pre rel ls ms post, _) ↔ _
    rw [hr]
    unfold splitRelations
    simp only [List.forall_mem_append, List.forall_mem_cons, hu a, not_or, and_assoc]
  have hin : IsInput env w { config with relations := splitRelations pre rel ls ms post } base (Split.two g pre rel ls ms post) := by
    refine ⟨rfl, ?_, hg.all, ?_⟩
    · have hc := hg.configured
      unfold RelationsConfigured at hc ⊢
      rw [hr] at hc
      show ∀ r ∈ splitRelations pre rel ls ms post, Configured config r.upper ∧ ∀ a ∈ r.lower, Configured config a
      unfold splitRelations
      simp only [List.forall_mem_append, List.forall_mem_cons] at hc ⊢
      obtain ⟨h1, ⟨h2, h3⟩, h4⟩ := hc
      exact ⟨h1, ⟨h2, fun a ha => h3 a ((hu a).2 (.inl ha))⟩, ⟨h2, fun a ha => h3 a ((hu a).2 (.inr ha))⟩, h4⟩
    · intro a art
      rw [show (Split.two g pre rel ls ms post).artefacts = g.artefacts from rfl, hg.artefacts]
      apply exists_congr
      intro ac
      constructor
      · rintro ⟨h1, h2, r, e, u, h3⟩
        exact ⟨h1, h2, r, e, u, (isArtefact_root (hroot _)).2 h3⟩
      · rintro ⟨h1, h2, r, e, u, h3⟩
        exact ⟨h1, h2, r, e, u, (isArtefact_root (hroot _)).1 h3⟩
  exact ⟨_, (C82_controller env w _ base _).2 ⟨_, hin, rfl⟩, rfl, rfl, rfl⟩

/-- **C157** If the reports can be written the exit code for one relation is not worse than that for two. -/
theorem C157_exit {env : Env} {w : World} {opt opt' : Arguments} {config : Config} {rel : Relation} {ls ms : List ArtefactId}
    {pre post : List Relation} (hu : LowerUnion rel ls ms) (hr : config.relations = pre ++ rel :: post)
    (hb : opt'.baseDir = opt.baseDir) (hj : opt'.jobs = opt.jobs) (hg : GoodConfig env w opt.configFile config)
    (hg' : GoodConfig env w opt'.configFile { config with relations := splitRelations pre rel ls ms post })
    (h : (Main.main env opt w).1 ≤ 1) (h' : (Main.main env opt' w).1 ≤ 1) :
    (Main.main env opt w).1 ≤ (Main.main env opt' w).1 := by
  obtain ⟨a0, a1, -⟩ := C28_exit_code_partial env opt w
  obtain ⟨b0, b1, -⟩ := C28_exit_code_partial env opt' w
  have e : ∀ n : Nat, n ≤ 1 → n = 0 ∨ n = 1 := by omega
  rcases e _ h with x | x <;> rcases e _ h' with y | y
  · rw [x, y]; exact Nat.le_refl _
  · rw [x, y]; exact Nat.zero_le _
  · exfalso
    obtain ⟨d, js, v, ⟨cfg, h1, h2, -, h3, -⟩, j, q2, q3, q4⟩ := a1.1 x
    obtain ⟨d', js', v', ⟨cfg', h1', h2', -, h3', -⟩, p2⟩ := b0.1 y
    cases GoodConfig_unique h1 hg
    cases GoodConfig_unique h1' hg'
    have r1 : requested { config with relations := splitRelations pre rel ls ms post } opt' = requested config opt := by
      unfold requested; rw [hj]
    rw [r1] at h3'
    obtain ⟨c', k1, k2, -⟩ := C157_project hu hr h2
    rw [hb, k1] at h2'
    cases h2'
    refine p2 ⟨j, (h3'.mem j).2 ((h3.mem j).1 q2), q3, ?_⟩
    revert q4
    unfold Detects
    split
    · refine C157_verdict (C18_consistent h2).1 hu (by rw [(C18_no_panic h2).2.1, hr]) (C18_no_panic h2).1 ?_
      rw [← k2]
      exact (C18_no_panic k1).1
    · rw [k2]; exact fun h => h
  · rw [x, y]; exact Nat.le_refl _

/-! ## Cases -/

namespace SplitExample

open CtrlExample

def config : Config where
  version := some 0
  artefacts := [⟨c!"REQ", [c!"req.md"], .markdown, none, none⟩, ⟨c!"DES", [c!"des.md"], .markdown, none, none⟩,
    ⟨c!"TEST", [c!"test.md"], .markdown, none, none⟩]
  relations := [⟨c!"REQ", [c!"DES", c!"TEST"]⟩]
  jobs := some (BMap.ofList [(c!"trace", ⟨.trace, .gnuError, c!"-", none⟩)])
  defaultJobs := some [c!"trace"]

def split : Config := { config with relations := splitRelations [] ⟨c!"REQ", [c!"DES", c!"TEST"]⟩ [c!"DES"] [c!"TEST"] [] }

/-- `R1` is designed and tested, `R2` is designed only. -/
def w (test : Str) : World := world [(c!"requirements.toml", c!"..."), (c!"split.toml", c!"."), (c!"p/req.md", c!"# R1: one\n# R2: two\n"),
  (c!"p/des.md", c!"# D1: low\nCovers: R1, R2\n"), (c!"p/test.md", c!"# T1: test\nCovers: " ++ test ++ c!"\n")]

def e : Env := { CtrlExample.env .nil config with
  tomlTree := fun b => .ok (ConfigRead.tree (if b = Utf8.encode c!"..." then config else split)) }

theorem exit {test : Str} (h : (Main.main e ⟨c!"requirements.toml", c!"p", []⟩ (w test)).1 ≤ 1)
    (h' : (Main.main e ⟨c!"split.toml", c!"p", []⟩ (w test)).1 ≤ 1) :
    (Main.main e ⟨c!"requirements.toml", c!"p", []⟩ (w test)).1 ≤ (Main.main e ⟨c!"split.toml", c!"p", []⟩ (w test)).1 :=
  C157_exit (config := config) (rel := ⟨c!"REQ", [c!"DES", c!"TEST"]⟩) (ls := [c!"DES"]) (ms := [c!"TEST"]) (pre := []) (post := [])
    (opt := ⟨c!"requirements.toml", c!"p", []⟩) (opt' := ⟨c!"split.toml", c!"p", []⟩)
    (fun b => by simp) rfl rfl rfl
    ⟨⟨Utf8.encode c!"...", none⟩, _, by unfold Os.openFile; rfl, rfl, rfl, (C78_config _ _).1 rfl, fun v hv => by cases hv; rfl⟩
    ⟨⟨Utf8.encode c!".", none⟩, _, by unfold Os.openFile; rfl, rfl, rfl, (C78_config _ _).1 rfl, fun v hv => by cases hv; rfl⟩ h h'

/-- Both requirements are tested: there is nothing to find with two relations, so there is nothing with one; -/
example : (Main.main e ⟨c!"requirements.toml", c!"p", []⟩ (w c!"R1, R2")).1 = 0 := by
  have h : (Main.main e ⟨c!"split.toml", c!"p", []⟩ (w c!"R1, R2")).1 = 0 := by decide +kernel
  have := exit (test := c!"R1, R2") (by decide +kernel) (Nat.le_trans (Nat.le_of_eq h) (Nat.zero_le 1))
  rw [h] at this
  exact Nat.le_zero.1 this

/-- one is not tested: that is found with two relations only. -/
example : (Main.main e ⟨c!"requirements.toml", c!"p", []⟩ (w c!"R1")).1 = 0 ∧ (Main.main e ⟨c!"split.toml", c!"p", []⟩ (w c!"R1")).1 = 1 := by
  constructor <;> decide +kernel

end SplitExample

end Reqtrace
