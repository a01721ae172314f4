import Verif.Spec.TextProject
import Verif.Props.CodeTree

/-!
# C170: from the texts of any project to the verdict
-/

namespace Reqtrace

open Spec RustLayout GlobText

namespace TextProject

/-- The graph has the requirements of the project and the settings of its configuration. -/
structure Mirror (g : Graph) (config : Config) (R : ArtefactId → Requirement → Prop) : Prop where
  relations : g.relations = config.relations
  defines : ∀ a r, Defines g a r ↔ R a r
  settings : ∀ ac, LastEntry config ac → ∃ art, g.artefacts.get ac.id = some art ∧
    (art.referenceWithTitle = true ↔ ac.referenceWithTitle = some true) ∧
    (art.ignoreDerivedRequirements = false ↔ MustCover config ac)
  configured : ∀ a art, g.artefacts.get a = some art → ∃ ac, LastEntry config ac ∧ ac.id = a

variable {g : Graph} {config : Config} {R : ArtefactId → Requirement → Prop}

theorem Mirror.inj (h : Mirror g config R) {a : ArtefactId} {r s : Requirement} (hr : R a r) (hs : R a s)
    (he : r.id = s.id) : r = s := by
  obtain ⟨x, h1, h2⟩ := (h.defines a r).2 hr
  obtain ⟨y, h3, h4⟩ := (h.defines a s).2 hs
  rw [h1] at h3
  cases h3
  rw [he, h4] at h2
  exact (Option.some.inj h2).symm

theorem Mirror.owns (h : Mirror g config R) (hu : ∀ a b r s, R a r → R b s → r.id = s.id → a = b)
    (a : ArtefactId) (r : Requirement) : Owns g a r ↔ R a r := by
  refine ⟨fun k => (h.defines a r).1 k.1, fun k => defines_owner ?_ ((h.defines a r).2 k)⟩
  intro a b r s h1 h2
  exact hu a b r s ((h.defines _ _).1 h1) ((h.defines _ _).1 h2)

/-- Along a relation, the linked requirements cover one another. -/
theorem Mirror.linked (h : Mirror g config R) (hu : ∀ a b r s, R a r → R b s → r.id = s.id → a = b) (rel : Relation)
    (a : ArtefactId) (u l : Requirement) :
    (∃ ref d, Establishes g rel a u l ref d) ↔ a ∈ rel.lower ∧ R rel.upper u ∧ R a l ∧ Linked u l := by
  constructor
  · rintro ⟨ref, d, k⟩
    cases k with
    | down h1 h2 h3 h4 h5 => exact ⟨h2, (h.defines _ _).1 h1, (h.defines _ _).1 h3.1, .inr ⟨ref, h4, h5⟩⟩
    | up h1 h2 h3 h4 h5 => exact ⟨h2, (h.defines _ _).1 h1, (h.defines _ _).1 h3.1, .inl ⟨ref, h4, h5⟩⟩
  · rintro ⟨h1, h2, h3, ⟨ref, h4, h5⟩ | ⟨ref, h4, h5⟩⟩
    · exact ⟨ref, _, .up ((h.defines _ _).2 h2) h1 ((h.owns hu _ _).2 h3) h4 h5⟩
    · exact ⟨ref, _, .down ((h.defines _ _).2 h2) h1 ((h.owns hu _ _).2 h3) h4 h5⟩

/-- The reference of a coverage is one of the requirement that refers, and the other requirement has its id. -/
theorem Mirror.refers (h : Mirror g config R) {rel : Relation} {a : ArtefactId} {u l : Requirement} {ref : Reference}
    {d : CoverageDirection} (k : Establishes g rel a u l ref d) :
    (∃ b r, R b r ∧ (ref ∈ r.covers ∨ ref ∈ r.depends)) ∧ R (referencedArt rel a d) (referenced u l d) ∧
      (referenced u l d).id = ref.id := by
  cases k with
  | down h1 h2 h3 h4 h5 =>
    exact ⟨⟨_, _, (h.defines _ _).1 h1, .inr h4⟩, (h.defines _ _).1 h3.1, h5.symm⟩
  | up h1 h2 h3 h4 h5 =>
    exact ⟨⟨_, _, (h.defines _ _).1 h3.1, .inl h4⟩, (h.defines _ _).1 h1, h5.symm⟩

theorem Mirror.clean (h : Mirror g config R) :
    (Sound g ∧ FullyCovered g ∧ NothingDerived g) ↔ AllTraced config R := by
  constructor
  · rintro ⟨hs, hc, hd⟩
    have hu : ∀ a b r s, R a r → R b s → r.id = s.id → a = b := fun a b r s h1 h2 =>
      hs.unique a b r s ((h.defines _ _).2 h1) ((h.defines _ _).2 h2)
    have title : ∀ rel ∈ g.relations, ∀ a u l ref d, Establishes g rel a u l ref d →
        ∀ ac, LastEntry config ac → ∀ s, R ac.id s → s.id = ref.id →
        ref.title ≠ none ∧ ref.title = s.title ∨ ref.title = none ∧ ac.referenceWithTitle ≠ some true := by
      intro rel hr a u l ref d k ac hac s hs' hid
      obtain ⟨-, k1, k2⟩ := h.refers k
      have e := hu _ _ _ _ hs' k1 (hid.trans k2.symm)
      rw [← e] at k1
      have e2 := h.inj hs' k1 (hid.trans k2.symm)
      rcases hs.titles rel hr a u l ref d k with ⟨m1, m2⟩ | ⟨m1, m2⟩
      · exact .inl ⟨m2, by rw [m1, e2]⟩
      · obtain ⟨art, m3, m4, -⟩ := h.settings ac hac
        refine .inr ⟨m1, fun m5 => ?_⟩
        rw [e] at m3
        have := m2 art m3
        rw [m4.2 m5] at this
        cases this
    refine ⟨hu, ?_, ?_, ?_, ?_, ?_, ?_⟩
    · intro a r hr ref hm
      obtain ⟨rel, h1, u, h2⟩ := hs.covers a r ((h.defines _ _).2 hr) ref hm
      cases h2 with
      | up k1 k2 k3 k4 k5 => exact ⟨rel, h.relations ▸ h1, k2, u, (h.defines _ _).1 k1, k5.symm⟩
    · intro a r hr ref hm
      obtain ⟨rel, h1, h0, b, l, h2⟩ := hs.depends a r ((h.defines _ _).2 hr) ref hm
      cases h2 with
      | down k1 k2 k3 k4 k5 => exact ⟨rel, h.relations ▸ h1, h0, b, k2, l, (h.defines _ _).1 k3.1, k5.symm⟩
    · rintro a r hr ref (hm | hm)
      · obtain ⟨rel, h1, u, h2⟩ := hs.covers a r ((h.defines _ _).2 hr) ref hm
        exact title rel h1 _ _ _ _ _ h2
      · obtain ⟨rel, h1, h0, b, l, h2⟩ := hs.depends a r ((h.defines _ _).2 hr) ref hm
        exact title rel h1 _ _ _ _ _ h2
    · intro rel hr
      obtain ⟨a, u, l, ref, d, k⟩ := hs.used rel (h.relations ▸ hr)
      obtain ⟨k1, k2, k3, k4⟩ := (h.linked hu rel a u l).1 ⟨ref, d, k⟩
      exact ⟨u, k2, a, k1, l, k3, k4⟩
    · intro rel hr u hu'
      obtain ⟨a, l, ref, d, k⟩ := hc rel (h.relations ▸ hr) u ((h.defines _ _).2 hu')
      obtain ⟨k1, k2, k3, k4⟩ := (h.linked hu rel a u l).1 ⟨ref, d, k⟩
      exact ⟨a, k1, l, k3, k4⟩
    · intro ac hac hm l hl
      obtain ⟨art, m1, -, m2⟩ := h.settings ac hac
      obtain ⟨rel, hr, u, ref, d, k⟩ := hd ac.id art m1 (m2.2 hm) l ((h.owns hu _ _).2 hl)
      obtain ⟨k1, k2, k3, k4⟩ := (h.linked hu rel _ u l).1 ⟨ref, d, k⟩
      exact ⟨rel, h.relations ▸ hr, k1, u, k2, k4⟩
  · intro t
    refine ⟨⟨?_, ?_, ?_, ?_, ?_⟩, ?_, ?_⟩
    · exact fun a b r s h1 h2 => t.unique a b r s ((h.defines _ _).1 h1) ((h.defines _ _).1 h2)
    · intro rel hr
      obtain ⟨u, k1, a, k2, l, k3, k4⟩ := t.used rel (h.relations ▸ hr)
      obtain ⟨ref, d, k⟩ := (h.linked t.unique rel a u l).2 ⟨k2, k1, k3, k4⟩
      exact ⟨a, u, l, ref, d, k⟩
    · intro a l hl ref hm
      obtain ⟨rel, h1, h2, u, h3, h4⟩ := t.covers a l ((h.defines _ _).1 hl) ref hm
      exact ⟨rel, h.relations ▸ h1, u,
        .up ((h.defines _ _).2 h3) h2 ((h.owns t.unique _ _).2 ((h.defines _ _).1 hl)) hm h4.symm⟩
    · intro a u hu ref hm
      obtain ⟨rel, h1, h0, b, h2, l, h3, h4⟩ := t.depends a u ((h.defines _ _).1 hu) ref hm
      exact ⟨rel, h.relations ▸ h1, h0, b, l, .down (h0 ▸ hu) h2 ((h.owns t.unique _ _).2 h3) hm h4.symm⟩
    · intro rel hr a u l ref d k
      obtain ⟨⟨b, r, k1, k2⟩, k3, k4⟩ := h.refers k
      obtain ⟨art, m0, -⟩ := (h.defines _ _).2 k3
      obtain ⟨ac, hac, e⟩ := h.configured _ _ m0
      rw [← e] at k3
      rcases t.titles b r k1 ref k2 ac hac _ k3 k4 with ⟨m1, m2⟩ | ⟨m1, m2⟩
      · exact .inl ⟨m2, m1⟩
      · refine .inr ⟨m1, fun art' m3 => ?_⟩
        obtain ⟨art2, m4, m5, -⟩ := h.settings ac hac
        rw [e, m3] at m4
        cases m4
        exact Bool.eq_false_iff.2 fun m6 => m2 (m5.1 m6)
    · intro rel hr u hu
      obtain ⟨a, k2, l, k3, k4⟩ := t.covered rel (h.relations ▸ hr) u ((h.defines _ _).1 hu)
      obtain ⟨ref, d, k⟩ := (h.linked t.unique rel a u l).2 ⟨k2, (h.defines _ _).1 hu, k3, k4⟩
      exact ⟨a, l, ref, d, k⟩
    · intro a art ha hf l hl
      obtain ⟨ac, hac, rfl⟩ := h.configured _ _ ha
      obtain ⟨art2, m1, -, m2⟩ := h.settings ac hac
      rw [ha] at m1
      cases m1
      obtain ⟨rel, k1, k2, u, k3, k4⟩ := t.derived ac hac (m2.1 hf) l ((h.defines _ _).1 hl.1)
      obtain ⟨ref, d, k⟩ := (h.linked t.unique rel _ u l).2 ⟨k2, k3, (h.defines _ _).1 hl.1, k4⟩
      exact ⟨rel, h.relations ▸ k1, u, ref, d, k⟩

variable {env : Env} {w : World} {opt : Arguments} {there : Path → Prop}

theorem code_file (hs : ReadsRust env.syn) {f : Path} {text : Str} {forest : Rs.Forest} {marks : List Entry}
    {reqs : List Requirement} (ho : env.os.openFile w f = .ok ⟨Utf8.encode text, none⟩) (hc : IsCode text forest)
    (hm : AllMarks env.syn.debug f (occs f [] none forest) marks []) (hg : Grouped reqs marks) :
    Holds env w .rust f reqs := by
  refine ⟨_, ho, ?_⟩
  have := (RustText.C164_file hs ho hc _ []).2 ⟨_, hm, hg⟩
  cases this with
  | opened h hm =>
    rw [ho] at h
    cases h
    exact hm

theorem says_holds (hs : ReadsRust env.syn) (hg : env.os.GlobWorks w there) {base : Path} {ac : ArtefactConfig}
    {reqs : List Requirement} (h : Says env w there base ac reqs) :
    ∃ fs rs, FilesOf env w ac base fs ∧ HoldAll env w ac.parser fs rs ∧ rs.Perm reqs := by
  cases h with
  | @document p reqs h1 h2 h3 =>
    refine ⟨[target base p], reqs, .inr ⟨h1, p, h2, rfl⟩, ?_, .refl _⟩
    have := HoldAll.cons h3 .nil
    rwa [List.append_nil] at this
  | @code gs items h1 h2 h3 h4 =>
    obtain ⟨fs, k1, k2⟩ := matched_means hg h2.directory ac.paths h2.patterns.2
    obtain ⟨hn, -⟩ := CodeTree.matched_once k1 hg h2.directory h2.patterns.2 h2.once h2.disjoint
    have hm : ∀ l : List Path, (∀ f ∈ l, f ∈ fs) → HoldAll env w .rust l (l.flatMap items) := by
      intro l
      induction l with
      | nil => exact fun _ => .nil
      | cons f l ih =>
        intro hl
        obtain ⟨t, fo, ms, m1, m2, m3, m4⟩ := h2.files f ((k2 f).1 (hl f List.mem_cons_self))
        exact .cons (code_file hs m1 m2 m3 m4) (ih fun g hg => hl g (List.mem_cons_of_mem _ hg))
    refine ⟨fs, fs.flatMap items, .inl ⟨h1, h2.patterns.1, k1⟩, by rw [h1]; exact hm fs fun _ h => h, ?_⟩
    exact ((List.perm_ext_iff_of_nodup hn h3).2 fun f => (k2 f).trans (h4 f).symm).flatMap_right items

theorem files_unique {base : Path} {ac : ArtefactConfig} {fs fs' : List Path} {rs rs' : List Requirement}
    (h1 : FilesOf env w ac base fs) (h2 : HoldAll env w ac.parser fs rs) (h3 : FilesOf env w ac base fs')
    (h4 : HoldAll env w ac.parser fs' rs') : rs = rs' := by
  obtain ⟨k1, k2, k3⟩ := (holdAll_iff fs rs).1 h2
  obtain ⟨m1, m2, m3⟩ := (holdAll_iff fs' rs').1 h4
  have h5 := (parseArtefact_filesOf h1 _).2 ⟨k1, rfl⟩
  rw [(parseArtefact_filesOf h3 _).2 ⟨m1, rfl⟩] at h5
  injection h5 with h5
  rw [k3, m3]
  exact (congrArg (fun v => v.2.1) h5).symm

theorem good {reqsOf : ArtefactId → List Requirement} (ht : env.ReadsToml)
    (h : Spec.TextProject env w opt there config reqsOf) :
    GoodConfig env w opt.configFile config := by
  obtain ⟨t, h1, h2⟩ := h.text
  exact (C162_good env ht w opt t config h1 h2 h.version).1

theorem last (h : (config.artefacts.map (·.id)).Nodup) {ac : ArtefactConfig} :
    LastEntry config ac ↔ ac ∈ config.artefacts := by
  constructor
  · rintro ⟨pre, post, e, -⟩
    rw [e]
    simp
  · intro hm
    obtain ⟨pre, post, e⟩ := List.append_of_mem hm
    refine ⟨pre, post, e, fun b hb hid => ?_⟩
    rw [e, List.map_append, List.map_cons] at h
    have := (List.nodup_cons.1 (List.nodup_append.1 h).2.1).1
    exact this (List.mem_map.2 ⟨b, hb, hid⟩)

theorem exists_last {a : ArtefactId} (h : Configured config a) : ∃ ac, LastEntry config ac ∧ ac.id = a := by
  have : ∀ l : List ArtefactConfig, (∃ ac ∈ l, ac.id = a) →
      ∃ pre ac post, l = pre ++ ac :: post ∧ ac.id = a ∧ ∀ b ∈ post, b.id ≠ a := by
    intro l
    induction l with
    | nil => simp
    | cons x l ih =>
      intro hx
      by_cases hl : ∃ ac ∈ l, ac.id = a
      · obtain ⟨pre, ac, post, e, h1, h2⟩ := ih hl
        exact ⟨x :: pre, ac, post, by rw [e]; rfl, h1, h2⟩
      · obtain ⟨ac, hm, e⟩ := hx
        rcases List.mem_cons.1 hm with rfl | hm
        · exact ⟨[], ac, l, rfl, e, fun b hb hid => hl ⟨b, hb, hid⟩⟩
        · exact (hl ⟨ac, hm, e⟩).elim
  obtain ⟨pre, ac, post, e, h1, h2⟩ := this config.artefacts h
  exact ⟨ac, ⟨pre, post, e, fun b hb => by rw [h1]; exact h2 b hb⟩, h1⟩

theorem last_configured {ac : ArtefactConfig} (h : LastEntry config ac) : Configured config ac.id := by
  obtain ⟨pre, post, e, -⟩ := h
  exact ⟨ac, by rw [e]; simp, rfl⟩

theorem holds_once {reqsOf : ArtefactId → List Requirement} (hs : ReadsRust env.syn) (hg : env.os.GlobWorks w there)
    (h : Spec.TextProject env w opt there config reqsOf)
    (hi : ∀ ac ∈ config.artefacts, ((reqsOf ac.id).map (·.id)).Nodup)
    (hr : ∀ ac ∈ config.artefacts, ac.referenceWithTitle = some true → ∀ r ∈ reqsOf ac.id, r.title ≠ none) :
    AllHold env w config opt.baseDir fun a r => r ∈ reqsOf a where
  files := fun ac hl => by
    have hac := (last h.once).1 hl
    obtain ⟨fs, rs, h1, h2, h3⟩ := says_holds hs hg (h.says ac hac)
    exact ⟨rs, ⟨⟨fs, h1, h2⟩, (h3.map _).nodup_iff.2 (hi ac hac), fun ht r hr' => hr ac hac ht r (h3.mem_iff.1 hr')⟩,
      fun r => h3.mem_iff⟩
  only := fun a r hr => h.only a (List.ne_nil_of_mem hr)

theorem holds {reqsOf : ArtefactId → List Requirement} (hs : ReadsRust env.syn) (hg : env.os.GlobWorks w there)
    (h : Spec.TextProject env w opt there config reqsOf) (hr : AllRight config reqsOf) :
    AllHold env w config opt.baseDir fun a r => r ∈ reqsOf a :=
  holds_once hs hg h hr.ids hr.titles

/-- The program reads the project as it is. -/
theorem mirror {base : Path} (h : AllHold env w config base R) {c : Controller}
    (hn : Controller.new env w config base = .ok c) :
    CleanInput env w config base c.graph ∧ Mirror c.graph config R := by
  have hrel : c.graph.relations = config.relations := (C18_no_panic hn).2.1
  have hdef : ∀ ac, LastEntry config ac → ∃ reqs, CleanArtefact env w ac base reqs ∧
      (∀ r, r ∈ reqs ↔ R ac.id r) ∧ ∀ r, Defines c.graph ac.id r ↔ r ∈ reqs := by
    intro ac hl
    obtain ⟨reqs, h1, h2⟩ := h.files ac hl
    refine ⟨reqs, h1, h2, fun r => ?_⟩
    obtain ⟨art, ha⟩ := (new_configured hn ac.id).1 (last_configured hl)
    obtain ⟨-, h3⟩ := (C68_no_errors_iff hn hl ha).2 reqs h1
    constructor
    · rintro ⟨art', ha', hr⟩
      rw [ha] at ha'
      cases ha'
      exact ((h3 _ r).1 hr).1
    · exact fun hr => ⟨art, ha, (h3 _ r).2 ⟨hr, rfl⟩⟩
  refine ⟨⟨hrel, fun a => (new_configured hn a).symm, fun ac hl => ?_⟩, hrel, fun a r => ⟨?_, ?_⟩, ?_, ?_⟩
  · obtain ⟨reqs, h1, -, h2⟩ := hdef ac hl
    exact ⟨reqs, h1, h2⟩
  · rintro ⟨art, ha, hr⟩
    obtain ⟨ac, hl, rfl⟩ := exists_last ((new_configured hn a).2 ⟨art, ha⟩)
    obtain ⟨reqs, -, h1, h2⟩ := hdef ac hl
    exact (h1 r).1 ((h2 r).1 ⟨art, ha, hr⟩)
  · intro hr
    obtain ⟨ac, hl, rfl⟩ := exists_last (h.only a r hr)
    obtain ⟨reqs, -, h1, h2⟩ := hdef ac hl
    exact (h2 r).2 ((h1 r).2 hr)
  · intro ac hl
    obtain ⟨art, ha⟩ := (new_configured hn ac.id).1 (last_configured hl)
    refine ⟨art, ha, ?_, ?_⟩
    · obtain ⟨ac', errs, h1, h2, -, h3, -⟩ := C20_appended hn ha
      cases lastEntry_unique h1 hl h2
      exact h3
    · obtain ⟨ac', h1, h2, h3, h4⟩ := C19_default_root hn ha
      cases lastEntry_unique h1 hl h2
      unfold MustCover
      cases hi : ac.ignoreDerivedRequirements with
      | some b => rw [h3 b hi]; simp
      | none =>
        rw [Bool.eq_false_iff, Ne, h4 hi]
        unfold IsRoot
        simp
  · rintro a art ha
    exact exists_last ((new_configured hn a).2 ⟨art, ha⟩)

/-- **C170** A run with a Trace job that counts, which is not broken off, ends with 0 exactly if nothing is wrong with the
files and everything in them is traced. -/
theorem C170_exact (env : Env) (opt : Arguments) (w : World)
    (hj : ∀ config, GoodConfig env w opt.configFile config → ∃ n ∈ requested config opt, ∃ j,
      (config.jobs.getD .empty).get n = some j ∧ j.query = .trace ∧ j.setReturnCode ≠ some false)
    (hm : (Main.main env opt w).1 ≤ 1) :
    (Main.main env opt w).1 = 0 ↔ ∃ config R, GoodConfig env w opt.configFile config ∧
      AllHold env w config opt.baseDir R ∧ AllTraced config R := by
  rw [C75_green env opt w hj]
  constructor
  · rintro ⟨config, c, js, w', h1, h2, -, -, h3, h4⟩
    have hh : AllHold env w config opt.baseDir (Defines c.graph) := by
      refine ⟨fun ac hl => ?_, ?_⟩
      · obtain ⟨reqs, k1, k2⟩ := h3.2.2 ac hl
        exact ⟨reqs, k1, fun r => (k2 r).symm⟩
      · rintro a r ⟨art, ha, -⟩
        exact (h3.2.1 a).1 ⟨art, ha⟩
    exact ⟨config, _, h1, hh, (mirror hh h2).2.clean.1 h4⟩
  · rintro ⟨config, R, hgood, hh, hc⟩
    have : ∃ c js w', AllRun env opt w c js w' := by
      have : (Main.main env opt w).1 = 0 ∨ (Main.main env opt w).1 = 1 := by omega
      rcases this with h0 | h1
      · obtain ⟨c, js, w', ha, -⟩ := (C28_exit_code_partial env opt w).1.1 h0
        exact ⟨c, js, w', ha⟩
      · obtain ⟨c, js, w', ha, -⟩ := (C28_exit_code_partial env opt w).2.1.1 h1
        exact ⟨c, js, w', ha⟩
    obtain ⟨c, js, w', cfg, h1, h2, -, h3, h4⟩ := this
    cases GoodConfig_unique h1 hgood
    obtain ⟨k1, k2⟩ := mirror hh h2
    exact ⟨config, c, js, w', hgood, h2, h3, h4, k1, k2.clean.2 hc⟩

/-- **C170** Of any project whose texts are well formed, a run with a Trace job that counts ends with 0 exactly if no id
is twice in an artefact, there are titles where they are asked for, and everything is traced. -/
theorem C170_green {reqsOf : ArtefactId → List Requirement} (ht : env.ReadsToml) (hs : ReadsRust env.syn)
    (hg : env.os.GlobWorks w there) (h : Spec.TextProject env w opt there config reqsOf)
    (hj : ∃ n ∈ requested config opt, ∃ j, (config.jobs.getD .empty).get n = some j ∧ j.query = .trace ∧
      j.setReturnCode ≠ some false) (hm : (Main.main env opt w).1 ≤ 1) :
    (Main.main env opt w).1 = 0 ↔ AllRight config reqsOf := by
  have hgood := good ht h
  rw [C170_exact env opt w (fun cfg hc => by
    cases GoodConfig_unique hc hgood
    exact hj) hm]
  constructor
  · rintro ⟨cfg, R, h1, h2, h3⟩
    cases GoodConfig_unique h1 hgood
    have key : ∀ ac ∈ config.artefacts, ∃ rs, rs.Perm (reqsOf ac.id) ∧ CleanArtefact env w ac opt.baseDir rs ∧
        ∀ r, r ∈ rs ↔ R ac.id r := by
      intro ac hac
      obtain ⟨fs, rs, k1, k2, k3⟩ := says_holds hs hg (h.says ac hac)
      obtain ⟨rs', k4, k5⟩ := h2.files ac ((last h.once).2 hac)
      obtain ⟨fs', m1, m2⟩ := k4.files
      cases files_unique k1 k2 m1 m2
      exact ⟨rs, k3, k4, k5⟩
    have hR : R = fun a r => r ∈ reqsOf a := by
      funext a r
      refine propext ⟨fun hr => ?_, fun hr => ?_⟩
      · obtain ⟨ac, hac, rfl⟩ := h2.only a r hr
        obtain ⟨rs, k1, -, k2⟩ := key ac hac
        exact k1.mem_iff.1 ((k2 r).2 hr)
      · obtain ⟨ac, hac, rfl⟩ := h.only a (List.ne_nil_of_mem hr)
        obtain ⟨rs, k1, -, k2⟩ := key ac hac
        exact (k2 r).1 (k1.mem_iff.2 hr)
    refine ⟨fun ac hac => ?_, fun ac hac ht r hr => ?_, hR ▸ h3⟩
    · obtain ⟨rs, k1, k2, -⟩ := key ac hac
      exact (k1.map _).nodup_iff.1 k2.ids
    · obtain ⟨rs, k1, k2, -⟩ := key ac hac
      exact k2.titles ht r (k1.mem_iff.2 hr)
  · exact fun hr => ⟨config, _, hgood, holds hs hg h hr, hr.traced⟩

/-- **C170** If no id is in two artefacts, the requirements reported as uncovered along a relation are those that no
requirement of its lower artefacts is linked to. -/
theorem C170_uncovered {base : Path} (h : AllHold env w config base R)
    (hu : ∀ a b r s, R a r → R b s → r.id = s.id → a = b)
    {c : Controller} (hn : Controller.new env w config base = .ok c) :
    c.tracedGraph.tracedRelations.map (·.relation) = config.relations ∧
    ∀ tr ∈ c.tracedGraph.tracedRelations, ∀ id, id ∈ tr.uncovered ↔
      ∃ u, R tr.relation.upper u ∧ u.id = id ∧ ¬ CoveredAlong R tr.relation u := by
  have hm := (mirror h hn).2
  have hk := (C18_consistent hn).1
  have ht := (C18_no_panic hn).1
  obtain ⟨_, e⟩ := (trace_ok_iff hk c.tracedGraph).1 ht
  have hl : c.tracedGraph.tracedRelations = c.graph.relations.map (tracedRelation c.graph) := by rw [e]; rfl
  refine ⟨?_, fun tr htr id => ?_⟩
  · rw [hl, List.map_map, ← hm.relations]
    exact List.map_id _
  · obtain ⟨i, hi⟩ := List.getElem?_of_mem htr
    have hrel : c.graph.relations[i]? = some tr.relation := by
      rw [hl, List.getElem?_map, Option.map_eq_some_iff] at hi
      obtain ⟨rel, k1, rfl⟩ := hi
      exact k1
    obtain ⟨art, h1, -, h2⟩ := C02_uncovered_complement hk ht htr
    rw [h2]
    constructor
    · rintro ⟨⟨r, hr⟩, h3⟩
      have hid : r.id = id := hk.requirement _ _ h1 _ _ hr
      subst hid
      have hR := (hm.defines _ _).1 ⟨art, h1, hr⟩
      refine ⟨r, hR, rfl, ?_⟩
      rintro ⟨a, k1, l, k2, k3⟩
      obtain ⟨ref, d, k⟩ := (hm.linked hu tr.relation a r l).2 ⟨k1, hR, k2, k3⟩
      exact h3 _ ((C01_coverage_exact hk ht hi ⟨r.id, l.id, ref.location, d⟩).2 ⟨_, _, _, _, _, hrel, k, rfl⟩) rfl
    · rintro ⟨r, hr, rfl, h3⟩
      obtain ⟨art', h4, h5⟩ := (hm.defines _ _).2 hr
      rw [h1] at h4
      cases h4
      refine ⟨⟨r, h5⟩, fun cv hc hid => h3 ?_⟩
      obtain ⟨rel, a, x, y, ref, k1, k2, e1⟩ := (C01_coverage_exact hk ht hi cv).1 hc
      rw [hrel] at k1
      cases k1
      obtain ⟨k3, k4, k5, k6⟩ := (hm.linked hu tr.relation a x y).1 ⟨_, _, k2⟩
      rw [e1] at hid
      rw [hm.inj hr k4 hid.symm]
      exact ⟨a, k3, y, k5, k6⟩

/-- **C170** If no id is in two artefacts, the requirements reported as derived are those that must cover something and are
linked to nothing above them. -/
theorem C170_derived {base : Path} (h : AllHold env w config base R)
    (hu : ∀ a b r s, R a r → R b s → r.id = s.id → a = b)
    {c : Controller} (hn : Controller.new env w config base = .ok c) :
    ∀ ac, LastEntry config ac → ∃ d, c.tracedGraph.derived.get ac.id = some d ∧ ∀ id, id ∈ d ↔
      MustCover config ac ∧ ∃ l, R ac.id l ∧ l.id = id ∧
        ¬ ∃ rel ∈ config.relations, ac.id ∈ rel.lower ∧ ∃ u, R rel.upper u ∧ Linked u l := by
  intro ac hac
  have hm := (mirror h hn).2
  have hk := (C18_consistent hn).1
  have ht := (C18_no_panic hn).1
  obtain ⟨_, e⟩ := (trace_ok_iff hk c.tracedGraph).1 ht
  have hl : c.tracedGraph.tracedRelations = c.graph.relations.map (tracedRelation c.graph) := by rw [e]; rfl
  obtain ⟨art, ha, -, hi⟩ := hm.settings ac hac
  obtain ⟨d, h1, -, h2⟩ := C03_derived_exact hk ht ha
  refine ⟨d, h1, fun id => ?_⟩
  rw [h2, hi]
  refine and_congr_right fun _ => ?_
  constructor
  · rintro ⟨⟨l, k1, rfl⟩, k2⟩
    have hR := (hm.owns hu _ _).1 k1
    refine ⟨l, hR, rfl, ?_⟩
    rintro ⟨rel, k3, k4, u, k5, k6⟩
    obtain ⟨ref, dir, k⟩ := (hm.linked hu rel ac.id u l).2 ⟨k4, k5, hR, k6⟩
    rw [← hm.relations] at k3
    obtain ⟨i, k7⟩ := List.getElem?_of_mem k3
    have k8 : c.tracedGraph.tracedRelations[i]? = some (tracedRelation c.graph rel) := by
      rw [hl, List.getElem?_map, k7]
      rfl
    exact k2 _ (List.mem_of_getElem? k8) _
      ((C01_coverage_exact hk ht k8 ⟨u.id, l.id, ref.location, dir⟩).2 ⟨_, _, _, _, _, k7, k, rfl⟩) rfl
  · rintro ⟨l, hR, rfl, k2⟩
    refine ⟨⟨l, (hm.owns hu _ _).2 hR, rfl⟩, fun tr htr cv hc hid => k2 ?_⟩
    obtain ⟨i, hi⟩ := List.getElem?_of_mem htr
    obtain ⟨rel, a, x, y, ref, m1, m2, e1⟩ := (C01_coverage_exact hk ht hi cv).1 hc
    obtain ⟨k3, k4, k5, k6⟩ := (hm.linked hu rel a x y).1 ⟨_, _, m2⟩
    rw [e1] at hid
    have := hu _ _ _ _ k5 hR hid
    subst this
    rw [← hm.inj k5 hR hid]
    exact ⟨rel, hm.relations ▸ List.mem_of_getElem? m1, k3, x, k4, k6⟩

end TextProject

namespace TextProjectExample

open CtrlExample TwoLayersExample TextProject

def e : Env := CodeTreeExample.e
def listing : List Path := CodeTreeExample.listing
def code : ArtefactConfig := CodeTreeExample.code
def issues : ArtefactConfig := ⟨c!"ISSUES", [c!"I_1.md"], .monoRequirement, none, none⟩

/-- The issue depends on requirements in Markdown, and these are covered by code. -/
def config : Config := { TwoLayersExample.config with
  artefacts := [issues, upper, code]
  relations := [⟨c!"ISSUES", [c!"REQ"]⟩, ⟨c!"REQ", [c!"CODE"]⟩] }

def w (issue : Str) : World := world [(c!"requirements.toml", TomlText.written config), (c!"p/I_1.md", issue), (c!"p/req.md", md),
  (c!"p/src/b.rs", CodeTreeExample.b), (c!"p/src/x/c.rs", CodeTreeExample.c)]

def text : Str := c!"The first issue\n\n=> REQ_A: title a\nneeds => REQ_B: title b\n"

def issue : Requirement := ⟨c!"I_1", some c!"The first issue", ⟨c!"p/I_1.md", none⟩, [],
  [⟨c!"REQ_A", some c!"title a", ⟨c!"p/I_1.md", some (.line 3)⟩⟩,
   ⟨c!"REQ_B", some c!"title b", ⟨c!"p/I_1.md", some (.line 4)⟩⟩], [], .empty⟩

def reqsOf (a : ArtefactId) : List Requirement :=
  if a == c!"ISSUES" then [issue] else if a == c!"REQ" then reqs else if a == c!"CODE" then [CodeTreeExample.f, CodeTreeExample.g]
  else []

theorem tree : MarkedTree e (w text) (· ∈ listing) args.baseDir code CodeTreeExample.items where
  directory := GlobExample.proper_p
  patterns := CodeTreeExample.project.patterns
  once := CodeTreeExample.project.once
  disjoint := CodeTreeExample.project.disjoint
  files := fun x hx => by
    obtain ⟨t, fo, h1, h2⟩ := CodeTreeExample.project.files x hx
    refine ⟨t, fo, _, ?_, h2⟩
    rw [← h1]
    rcases CodeTreeExample.meant x hx with rfl | rfl <;> decide +kernel

theorem project : Spec.TextProject e (w text) args (· ∈ listing) config reqsOf where
  text := ⟨TomlText.written config, by decide +kernel,
    C162_written config (fun v h => by cases h; decide) (fun m h => by cases h; decide +kernel)⟩
  version := fun v h => by cases h; rfl
  once := by decide
  says := fun ac hac => by
    simp only [config, List.mem_cons, List.not_mem_nil, or_false] at hac
    rcases hac with rfl | rfl | rfl
    · exact .document (p := c!"I_1.md") (reqs := [issue]) (by decide) rfl
        ⟨text, by decide +kernel, (C81_file ..).1 (by decide +kernel)⟩
    · exact .document (p := c!"req.md") (reqs := reqs) (by decide) rfl
        ⟨md, by decide +kernel, (C81_file ..).1 (by decide +kernel)⟩
    · exact .code (fs := [c!"p/src/b.rs", c!"p/src/x/c.rs"]) rfl tree (by decide) fun f => by
        exact .trans (by simp) (CodeTreeExample.meant_iff f).symm
  only := fun a h => by
    unfold reqsOf at h
    split at h
    · rename_i h1
      exact ⟨issues, by decide +kernel, (eq_of_beq h1).symm⟩
    · split at h
      · rename_i h1
        exact ⟨upper, by decide +kernel, (eq_of_beq h1).symm⟩
      · split at h
        · rename_i h1
          exact ⟨code, by decide +kernel, (eq_of_beq h1).symm⟩
        · cases h rfl

theorem cases_of {a : ArtefactId} {r : Requirement} (h : r ∈ reqsOf a) :
    (a = c!"ISSUES" ∧ r = issue) ∨ (a = c!"REQ" ∧ r = reqs[0]) ∨ (a = c!"REQ" ∧ r = reqs[1]) ∨
    (a = c!"CODE" ∧ r = CodeTreeExample.f) ∨ (a = c!"CODE" ∧ r = CodeTreeExample.g) := by
  unfold reqsOf at h
  split at h
  · rename_i h1
    exact .inl ⟨eq_of_beq h1, List.mem_singleton.1 h⟩
  · split at h
    · rename_i h1
      rcases List.mem_cons.1 h with h | h
      · exact .inr (.inl ⟨eq_of_beq h1, h⟩)
      · exact .inr (.inr (.inl ⟨eq_of_beq h1, List.mem_singleton.1 h⟩))
    · split at h
      · rename_i h1
        rcases List.mem_cons.1 h with h | h
        · exact .inr (.inr (.inr (.inl ⟨eq_of_beq h1, h⟩)))
        · exact .inr (.inr (.inr (.inr ⟨eq_of_beq h1, List.mem_singleton.1 h⟩)))
      · cases h

theorem linked_issue (r : Requirement) (h : r ∈ reqs) : Linked issue r := by
  refine .inr ?_
  revert r
  decide

theorem covered_req (r : Requirement) (h : r ∈ reqs) :
    CoveredAlong (fun a r => r ∈ reqsOf a) ⟨c!"REQ", [c!"CODE"]⟩ r := by
  simp only [reqs, List.mem_cons, List.not_mem_nil, or_false] at h
  rcases h with rfl | rfl
  · exact ⟨c!"CODE", by decide, CodeTreeExample.f, by decide, .inl (by decide)⟩
  · exact ⟨c!"CODE", by decide, CodeTreeExample.g, by decide, .inl (by decide)⟩

theorem traced : AllTraced config (fun a r => r ∈ reqsOf a) where
  unique := fun a b r s hr hs => by
    rcases cases_of hr with ⟨rfl, rfl⟩ | ⟨rfl, rfl⟩ | ⟨rfl, rfl⟩ | ⟨rfl, rfl⟩ | ⟨rfl, rfl⟩ <;>
    rcases cases_of hs with ⟨rfl, rfl⟩ | ⟨rfl, rfl⟩ | ⟨rfl, rfl⟩ | ⟨rfl, rfl⟩ | ⟨rfl, rfl⟩ <;> decide
  covers := fun a r hr => by
    rcases cases_of hr with ⟨rfl, rfl⟩ | ⟨rfl, rfl⟩ | ⟨rfl, rfl⟩ | ⟨rfl, rfl⟩ | ⟨rfl, rfl⟩ <;> intro ref hm
    · cases hm
    · cases hm
    · cases hm
    · cases List.mem_singleton.1 hm
      exact ⟨⟨c!"REQ", [c!"CODE"]⟩, by decide, by decide, reqs[0], by decide, rfl⟩
    · cases List.mem_singleton.1 hm
      exact ⟨⟨c!"REQ", [c!"CODE"]⟩, by decide, by decide, reqs[1], by decide, rfl⟩
  depends := fun a r hr => by
    rcases cases_of hr with ⟨rfl, rfl⟩ | ⟨rfl, rfl⟩ | ⟨rfl, rfl⟩ | ⟨rfl, rfl⟩ | ⟨rfl, rfl⟩ <;> intro ref hm
    · refine ⟨⟨c!"ISSUES", [c!"REQ"]⟩, by decide, rfl, c!"REQ", by decide, ?_⟩
      revert ref
      decide
    all_goals cases hm
  titles := by
    intro a r hr ref hm
    have : ∀ ref ∈ r.covers ++ r.depends, ∀ ac ∈ config.artefacts, ∀ s ∈ reqsOf ac.id, s.id = ref.id →
        ref.title ≠ none ∧ ref.title = s.title ∨ ref.title = none ∧ ac.referenceWithTitle ≠ some true := by
      rcases cases_of hr with ⟨rfl, rfl⟩ | ⟨rfl, rfl⟩ | ⟨rfl, rfl⟩ | ⟨rfl, rfl⟩ | ⟨rfl, rfl⟩ <;> decide
    exact fun ac hl => this ref (List.mem_append.2 hm) ac ((last project.once).1 hl)
  used := fun rel hr => by
    simp only [config, List.mem_cons, List.not_mem_nil, or_false] at hr
    rcases hr with rfl | rfl
    · exact ⟨issue, by decide, c!"REQ", by decide, reqs[0], by decide, linked_issue _ (by decide)⟩
    · exact ⟨reqs[0], by decide, covered_req _ (by decide)⟩
  covered := fun rel hr u hu => by
    simp only [config, List.mem_cons, List.not_mem_nil, or_false] at hr
    rcases hr with rfl | rfl
    · cases List.mem_singleton.1 hu
      exact ⟨c!"REQ", by decide, reqs[0], by decide, linked_issue _ (by decide)⟩
    · exact covered_req u hu
  derived := fun ac hac hm l hl => by
    have hac := (last project.once).1 hac
    simp only [config, List.mem_cons, List.not_mem_nil, or_false] at hac
    rcases hac with rfl | rfl | rfl
    · exfalso
      rcases hm with h | ⟨-, rel, h1, h2⟩
      · cases h
      · revert rel
        decide
    · exact ⟨⟨c!"ISSUES", [c!"REQ"]⟩, by decide, by decide, issue, by decide, linked_issue l hl⟩
    · refine ⟨⟨c!"REQ", [c!"CODE"]⟩, by decide, by decide, ?_⟩
      rcases List.mem_cons.1 hl with rfl | hl
      · exact ⟨reqs[0], by decide, .inl (by decide)⟩
      · cases List.mem_singleton.1 hl
        exact ⟨reqs[1], by decide, .inl (by decide)⟩

theorem all : AllRight config reqsOf := ⟨by decide, by decide, traced⟩

example : (Main.main e args (w text)).1 = 0 :=
  (C170_green (env := e) e_toml e_rust (CodeTreeExample.e_works _) project
    ⟨c!"trace", by decide, _, by rfl, by decide, by decide⟩ (by decide +kernel)).2 all

/-- Without one of the references, with one to nothing, with one to itself and with another title: not green -/
example : (Main.main e args (w c!"The first issue\n=> REQ_A: title a\n")).1 = 1 ∧
    (Main.main e args (w (text ++ c!"=> REQ_C: title c\n"))).1 = 1 ∧
    (Main.main e args (w (text ++ c!"=> I_1\n"))).1 = 1 ∧
    (Main.main e args (w (text ++ c!"=> REQ_A: title b\n"))).1 = 1 ∧
    (Main.main e args (w (text ++ c!"=> REQ_A: title a\n"))).1 = 0 := by
  decide +kernel

/-- The files of the example hold these requirements, whatever the library says about the layout of the configuration. -/
example : AllHold e (w text) config args.baseDir (fun a r => r ∈ reqsOf a) :=
  holds (env := e) e_rust (CodeTreeExample.e_works _) project all

/-- A requirement that the issue does not name is derived; one that no code names is uncovered. -/
example : ((Controller.new e (w c!"The first issue\n=> REQ_A: title a\n") config args.baseDir).toOption.map fun c =>
      (c.tracedGraph.derived.get c!"REQ", c.tracedGraph.tracedRelations.map (·.uncovered))) = some (some [c!"REQ_B"], [[], []]) ∧
    ((Controller.new e (world [(c!"p/I_1.md", text), (c!"p/req.md", md), (c!"p/src/b.rs", []),
        (c!"p/src/x/c.rs", CodeTreeExample.c)]) config args.baseDir).toOption.map fun c =>
      (c.tracedGraph.derived.get c!"REQ", c.tracedGraph.tracedRelations.map (·.uncovered))) = some (some [], [[], [c!"REQ_A"]]) := by
  decide +kernel

/-- An id twice in the document, or a requirement without the title that is asked for: not green -/
example : (Main.main e args (world [(c!"requirements.toml", TomlText.written config), (c!"p/I_1.md", text),
      (c!"p/req.md", md ++ c!"# REQ_A: title a\n"), (c!"p/src/b.rs", CodeTreeExample.b), (c!"p/src/x/c.rs", CodeTreeExample.c)])).1 = 1 ∧
    (Main.main e args (world [(c!"requirements.toml", TomlText.written config), (c!"p/I_1.md", text),
      (c!"p/req.md", c!"# REQ_A: title a\n# REQ_B\n"), (c!"p/src/b.rs", CodeTreeExample.b),
      (c!"p/src/x/c.rs", CodeTreeExample.c)])).1 = 1 := by
  decide +kernel

end TextProjectExample

end Reqtrace
