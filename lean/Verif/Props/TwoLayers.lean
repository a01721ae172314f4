import Verif.Spec.TwoLayers
import Verif.Props.RustText
import Verif.Props.Toml
import Verif.Props.Input
import Verif.Spec.Doc2
import Verif.Props.Moved

/-!
# C166: requirements in a Markdown document, marks in Rust code
-/

namespace Reqtrace

open Spec RustLayout

namespace TwoLayers

theorem grouped_items {items : List Requirement} {es : List Entry} (h : Grouped items es) :
    (∀ i ∈ items, i.depends = [] ∧ i.covers ≠ []) ∧ (∀ ref, (∃ i ∈ items, ref ∈ i.covers) ↔ ∃ e ∈ es, e.ref = ref) := by
  obtain ⟨gs, rfl, rfl, h, -⟩ := h
  refine ⟨?_, fun ref => ⟨?_, ?_⟩⟩
  · intro i hi
    obtain ⟨g, hg, rfl⟩ := List.mem_map.1 hi
    obtain ⟨h1, -, ⟨e, rest, h2, -⟩, -, h3, -⟩ := h g hg
    exact ⟨h3, by rw [h1, h2]; simp⟩
  · rintro ⟨i, hi, hr⟩
    obtain ⟨g, hg, rfl⟩ := List.mem_map.1 hi
    obtain ⟨h1, -⟩ := h g hg
    rw [h1] at hr
    obtain ⟨e, he, rfl⟩ := List.mem_map.1 hr
    exact ⟨e, List.mem_flatten.2 ⟨_, List.mem_map_of_mem hg, he⟩, rfl⟩
  · rintro ⟨e, he, rfl⟩
    obtain ⟨l, hl, he⟩ := List.mem_flatten.1 he
    obtain ⟨g, hg, rfl⟩ := List.mem_map.1 hl
    obtain ⟨h1, -⟩ := h g hg
    exact ⟨g.1, List.mem_map_of_mem hg, by rw [h1]; exact List.mem_map_of_mem he⟩

theorem code_items {env : Env} {w : World} {fs : List Path} {es : List Entry} {items : List Requirement}
    (h : MarkedFiles env w fs es items) :
    (∀ i ∈ items, i.depends = [] ∧ i.covers ≠ []) ∧ (∀ ref, (∃ i ∈ items, ref ∈ i.covers) ↔ ∃ e ∈ es, e.ref = ref) := by
  induction h with
  | nil => simp
  | cons _ _ _ hg _ ih =>
    obtain ⟨a1, a2⟩ := grouped_items hg
    obtain ⟨b1, b2⟩ := ih
    refine ⟨fun i hi => ?_, fun ref => ?_⟩
    · rcases List.mem_append.1 hi with hi | hi
      · exact a1 i hi
      · exact b1 i hi
    · simp only [List.mem_append, or_and_right, exists_or]
      rw [a2, b2]

theorem code_holds {env : Env} (hs : ReadsRust env.syn) {w : World} {fs : List Path} {es : List Entry}
    {items : List Requirement} (h : MarkedFiles env w fs es items) : HoldAll env w .rust fs items := by
  induction h with
  | nil => exact .nil
  | cons ho hc hm hg _ ih =>
    refine .cons ⟨_, ho, ?_⟩ ih
    have := (RustText.C164_file hs ho hc _ []).2 ⟨_, hm, hg⟩
    cases this with
    | opened h hm =>
      rw [ho] at h
      cases h
      exact hm

/-- The graph of such a project. -/
structure Shape (g : Graph) (u k : ArtefactId) (named : Bool) (reqs : List Requirement) (es : List Entry)
    (items : List Requirement) : Prop where
  relations : g.relations = [⟨u, [k]⟩]
  different : u ≠ k
  upper : ∃ art, g.artefacts.get u = some art ∧ art.referenceWithTitle = named ∧ art.ignoreDerivedRequirements = true
  only : ∀ a r, Defines g a r → a = u ∨ a = k
  above : ∀ r, Defines g u r ↔ r ∈ reqs
  below : ∀ r, Defines g k r ↔ r ∈ items
  plain : ∀ r ∈ reqs, r.covers = [] ∧ r.depends = []
  marked : ∀ i ∈ items, i.depends = [] ∧ i.covers ≠ []
  marks : ∀ ref, (∃ i ∈ items, ref ∈ i.covers) ↔ ∃ e ∈ es, e.ref = ref
  apart : ∀ r ∈ reqs, ∀ i ∈ items, r.id ≠ i.id
  ids : (reqs.map (·.id)).Nodup
  itemIds : (items.map (·.id)).Nodup

variable {g : Graph} {u k : ArtefactId} {named : Bool} {reqs items : List Requirement} {es : List Entry}

theorem Shape.unique (h : Shape g u k named reqs es items) : IdsUnique g := by
  intro a b r s hr hs he
  rcases h.only a r hr with rfl | rfl <;> rcases h.only b s hs with rfl | rfl
  · rfl
  · exact absurd he (h.apart _ ((h.above _).1 hr) _ ((h.below _).1 hs))
  · exact absurd he.symm (h.apart _ ((h.above _).1 hs) _ ((h.below _).1 hr))
  · rfl

theorem nodup_inj {l : List Requirement} (h : (l.map (·.id)).Nodup) {r s : Requirement} (hr : r ∈ l) (hs : s ∈ l)
    (he : r.id = s.id) : r = s := by
  induction l with
  | nil => cases hr
  | cons a l ih =>
    rw [List.map_cons, List.nodup_cons] at h
    rcases List.mem_cons.1 hr with rfl | hr' <;> rcases List.mem_cons.1 hs with rfl | hs'
    · rfl
    · exact (h.1 (List.mem_map.2 ⟨s, hs', he.symm⟩)).elim
    · exact (h.1 (List.mem_map.2 ⟨r, hr', he⟩)).elim
    · exact ih h.2 hr' hs'

/-- What covers what: the marks. -/
theorem Shape.establishes (h : Shape g u k named reqs es items) {rel : Relation} (hr : rel ∈ g.relations)
    (a : ArtefactId) (x y : Requirement) (ref : Reference) (d : CoverageDirection) :
    Establishes g rel a x y ref d ↔
      d = .upwards ∧ a = k ∧ x ∈ reqs ∧ y ∈ items ∧ ref ∈ y.covers ∧ ref.id = x.id := by
  rw [h.relations, List.mem_singleton] at hr
  subst hr
  constructor
  · intro he
    cases he with
    | down h1 h2 h3 h4 h5 =>
      rw [(h.plain _ ((h.above _).1 h1)).2] at h4
      cases h4
    | up h1 h2 h3 h4 h5 =>
      cases List.mem_singleton.1 h2
      exact ⟨rfl, rfl, (h.above _).1 h1, (h.below _).1 h3.1, h4, h5⟩
  · rintro ⟨rfl, rfl, h1, h2, h3, h4⟩
    exact .up ((h.above _).2 h1) (List.mem_singleton.2 rfl) (defines_owner h.unique ((h.below _).2 h2)) h3 h4

theorem Shape.clean (h : Shape g u k named reqs es items) :
    (Sound g ∧ FullyCovered g ∧ NothingDerived g) ↔
      reqs ≠ [] ∧ (∀ r ∈ reqs, ∃ e ∈ es, e.ref.id = r.id) ∧
      ∀ e ∈ es, ∃ r ∈ reqs, e.ref.id = r.id ∧
        (e.ref.title = r.title ∧ e.ref.title ≠ none ∨ e.ref.title = none ∧ named = false) := by
  have hrel : ⟨u, [k]⟩ ∈ g.relations := by rw [h.relations]; exact List.mem_singleton.2 rfl
  obtain ⟨art, hu, hn, hi⟩ := h.upper
  constructor
  · rintro ⟨hs, hc, -⟩
    refine ⟨?_, fun r hr => ?_, fun e he => ?_⟩
    · rintro rfl
      obtain ⟨a, x, y, ref, d, h1⟩ := hs.used _ hrel
      have := ((h.establishes hrel _ _ _ _ _).1 h1).2.2.1
      cases this
    · obtain ⟨a, y, ref, d, h1⟩ := hc _ hrel r ((h.above r).2 hr)
      obtain ⟨-, -, -, h2, h3, h4⟩ := (h.establishes hrel _ _ _ _ _).1 h1
      obtain ⟨e, he, rfl⟩ := (h.marks ref).1 ⟨y, h2, h3⟩
      exact ⟨e, he, h4⟩
    · obtain ⟨i, h1, h2⟩ := (h.marks e.ref).2 ⟨e, he, rfl⟩
      obtain ⟨rel, h3, x, h4⟩ := hs.covers k i ((h.below i).2 h1) _ h2
      obtain ⟨-, -, h5, -, -, h6⟩ := (h.establishes h3 _ _ _ _ _).1 h4
      refine ⟨x, h5, h6, ?_⟩
      rw [h.relations, List.mem_singleton] at h3
      subst h3
      rcases hs.titles _ hrel _ _ _ _ _ h4 with h7 | ⟨h7, h8⟩
      · exact .inl h7
      · exact .inr ⟨h7, hn ▸ h8 art hu⟩
  · rintro ⟨h1, h2, h3⟩
    have key : ∀ i ∈ items, ∀ ref ∈ i.covers, ∃ x, Establishes g ⟨u, [k]⟩ k x i ref .upwards := by
      intro i hi ref hr
      obtain ⟨e, he, rfl⟩ := (h.marks ref).1 ⟨i, hi, hr⟩
      obtain ⟨r, h4, h5, -⟩ := h3 e he
      exact ⟨r, (h.establishes hrel _ _ _ _ _).2 ⟨rfl, rfl, h4, hi, hr, h5⟩⟩
    have cov : ∀ r ∈ reqs, ∃ i ref, Establishes g ⟨u, [k]⟩ k r i ref .upwards := by
      intro r hr
      obtain ⟨e, he, h4⟩ := h2 r hr
      obtain ⟨i, h5, h6⟩ := (h.marks e.ref).2 ⟨e, he, rfl⟩
      exact ⟨i, e.ref, (h.establishes hrel _ _ _ _ _).2 ⟨rfl, rfl, hr, h5, h6, h4⟩⟩
    refine ⟨⟨h.unique, ?_, ?_, ?_, ?_⟩, ?_, ?_⟩
    · intro rel hr
      rw [h.relations, List.mem_singleton] at hr
      subst hr
      obtain ⟨r, hr⟩ := List.exists_mem_of_ne_nil _ h1
      obtain ⟨i, ref, h4⟩ := cov r hr
      exact ⟨_, _, _, _, _, h4⟩
    · intro a l hl ref hr
      rcases h.only a l hl with rfl | rfl
      · rw [(h.plain _ ((h.above _).1 hl)).1] at hr
        cases hr
      · exact ⟨_, hrel, key l ((h.below l).1 hl) ref hr⟩
    · intro a x hx ref hr
      rcases h.only a x hx with rfl | rfl
      · rw [(h.plain _ ((h.above _).1 hx)).2] at hr
        cases hr
      · rw [(h.marked _ ((h.below _).1 hx)).1] at hr
        cases hr
    · intro rel hr a x y ref d h4
      obtain ⟨rfl, rfl, h5, h6, h7, h8⟩ := (h.establishes hr _ _ _ _ _).1 h4
      rw [h.relations, List.mem_singleton] at hr
      subst hr
      obtain ⟨e, he, rfl⟩ := (h.marks ref).1 ⟨y, h6, h7⟩
      obtain ⟨r, k1, k2, k3⟩ := h3 e he
      have : r = x := nodup_inj h.ids k1 h5 (k2.symm.trans h8)
      subst this
      rcases k3 with k3 | ⟨k3, k4⟩
      · exact .inl k3
      · refine .inr ⟨k3, fun art' ha => ?_⟩
        have ha : g.artefacts.get u = some art' := ha
        rw [hu] at ha
        cases ha
        rw [hn, k4]
    · intro rel hr x hx
      rw [h.relations, List.mem_singleton] at hr
      subst hr
      obtain ⟨i, ref, h4⟩ := cov x ((h.above x).1 hx)
      exact ⟨_, _, _, _, h4⟩
    · intro a art' ha hf l hl
      rcases h.only a l hl.1 with rfl | rfl
      · rw [hu] at ha
        cases ha
        rw [hi] at hf
        cases hf
      · have hm := (h.below _).1 hl.1
        obtain ⟨ref, hr⟩ := List.exists_mem_of_ne_nil _ (h.marked l hm).2
        obtain ⟨x, h4⟩ := key l hm ref hr
        exact ⟨_, hrel, _, _, _, h4⟩

variable {env : Env} {w : World} {opt : Arguments} {config : Config} {upper code : ArtefactConfig}

theorem last_upper (h : TwoLayers env w opt config upper code reqs es items) : LastEntry config upper := by
  rcases h.artefacts with e | e
  · exact ⟨[], [code], e, fun b hb => by rw [List.mem_singleton.1 hb]; exact fun e => h.different e.symm⟩
  · exact ⟨[code], [], e, fun b hb => by cases hb⟩

theorem last_code (h : TwoLayers env w opt config upper code reqs es items) : LastEntry config code := by
  rcases h.artefacts with e | e
  · exact ⟨[upper], [], e, fun b hb => by cases hb⟩
  · exact ⟨[], [upper], e, fun b hb => by rw [List.mem_singleton.1 hb]; exact h.different⟩

theorem last_only (h : TwoLayers env w opt config upper code reqs es items) {ac : ArtefactConfig}
    (hl : LastEntry config ac) : ac = upper ∨ ac = code := by
  obtain ⟨pre, post, e, -⟩ := hl
  have hm : ac ∈ config.artefacts := by rw [e]; simp
  rcases h.artefacts with e | e <;> rw [e] at hm <;> simp at hm
  · exact hm
  · exact hm.symm

theorem clean_upper (h : TwoLayers env w opt config upper code reqs es items) :
    CleanArtefact env w upper opt.baseDir reqs := by
  obtain ⟨p, h1, h2⟩ := h.document
  refine ⟨⟨[target opt.baseDir p], .inr ⟨by rw [h.markdown]; exact (fun h => by cases h), p, h1, rfl⟩, ?_⟩, h.ids, h.titles⟩
  rw [h.markdown]
  have := HoldAll.cons h2 .nil
  rwa [List.append_nil] at this

theorem clean_code (hs : ReadsRust env.syn) (h : TwoLayers env w opt config upper code reqs es items) :
    CleanArtefact env w code opt.baseDir items := by
  obtain ⟨fs, h1, h2⟩ := h.files
  exact ⟨⟨fs, h1, by rw [h.rust]; exact code_holds hs h2⟩, h.itemIds, fun ht => absurd ht h.untitled⟩

theorem good (ht : env.ReadsToml) (h : TwoLayers env w opt config upper code reqs es items) :
    GoodConfig env w opt.configFile config := by
  obtain ⟨t, h1, h2⟩ := h.text
  exact (C162_good env ht w opt t config h1 h2 h.version).1

theorem shape (hs : ReadsRust env.syn) (h : TwoLayers env w opt config upper code reqs es items) {c : Controller}
    (hn : Controller.new env w config opt.baseDir = .ok c) :
    CleanInput env w config opt.baseDir c.graph ∧
    Shape c.graph upper.id code.id (upper.referenceWithTitle == some true) reqs es items := by
  have hrel : c.graph.relations = config.relations := (C18_no_panic hn).2.1
  have hdef : ∀ ac rs, LastEntry config ac → CleanArtefact env w ac opt.baseDir rs →
      ∀ r, Defines c.graph ac.id r ↔ r ∈ rs := by
    intro ac rs hl hc r
    have hcfg : Configured config ac.id := by
      obtain ⟨pre, post, e, _⟩ := hl
      exact ⟨ac, by rw [e]; simp, rfl⟩
    obtain ⟨art, ha⟩ := (new_configured hn ac.id).1 hcfg
    obtain ⟨-, h2⟩ := C68_no_errors_iff hn hl ha
    obtain ⟨-, h3⟩ := h2 rs hc
    constructor
    · rintro ⟨art', ha', hr⟩
      rw [ha] at ha'
      cases ha'
      exact ((h3 _ r).1 hr).1
    · exact fun hr => ⟨art, ha, (h3 _ r).2 ⟨hr, rfl⟩⟩
  have hu := hdef _ _ (last_upper h) (clean_upper h)
  have hk := hdef _ _ (last_code h) (clean_code hs h)
  obtain ⟨fs, -, hf⟩ := h.files
  obtain ⟨f1, f2⟩ := code_items hf
  refine ⟨⟨hrel, fun a => (new_configured hn a).symm, fun ac hl => ?_⟩,
    ⟨by rw [hrel, h.relations], h.different, ?_, ?_, hu, hk, h.plain, f1, f2, h.apart, h.ids, h.itemIds⟩⟩
  · rcases last_only h hl with rfl | rfl
    · exact ⟨_, clean_upper h, hu⟩
    · exact ⟨_, clean_code hs h, hk⟩
  · have hcfg : Configured config upper.id := by
      obtain ⟨pre, post, e, _⟩ := last_upper h
      exact ⟨upper, by rw [e]; simp, rfl⟩
    obtain ⟨art, ha⟩ := (new_configured hn upper.id).1 hcfg
    refine ⟨art, ha, ?_, ?_⟩
    · obtain ⟨ac, errs, h1, h2, -, h3, -⟩ := C20_appended hn ha
      have : ac = upper := by
        rcases last_only h h1 with e | e
        · exact e
        · subst e
          exact absurd h2.symm h.different
      subst this
      rw [Bool.eq_iff_iff, h3]
      simp
    · obtain ⟨ac, h1, h2, h3, h4⟩ := C19_default_root hn ha
      have : ac = upper := by
        rcases last_only h h1 with e | e
        · exact e
        · subst e
          exact absurd h2.symm h.different
      subst this
      cases hi : ac.ignoreDerivedRequirements with
      | some b =>
        cases b with
        | true => exact h3 _ hi
        | false => exact absurd hi h.top
      | none =>
        refine (h4 hi).2 fun rel hr => ?_
        rw [h.relations, List.mem_singleton] at hr
        subst hr
        exact fun hm => h.different (List.mem_singleton.1 hm)
  · rintro a r ⟨art, ha, -⟩
    obtain ⟨ac, hm, rfl⟩ := (new_configured hn a).2 ⟨art, ha⟩
    rcases h.artefacts with e | e <;> rw [e] at hm <;> simp at hm
    · rcases hm with rfl | rfl
      · exact .inl rfl
      · exact .inr rfl
    · rcases hm with rfl | rfl
      · exact .inr rfl
      · exact .inl rfl

/-- **C166** Of a project with requirements in Markdown and marks in code, a run with a Trace job that counts ends with 0
exactly if there are requirements, every requirement has a mark, and every mark names a requirement. -/
theorem C166_green (ht : env.ReadsToml) (hs : ReadsRust env.syn)
    (h : TwoLayers env w opt config upper code reqs es items)
    (hj : ∃ n ∈ requested config opt, ∃ j, (config.jobs.getD .empty).get n = some j ∧ j.query = .trace ∧
      j.setReturnCode ≠ some false) (hm : (Main.main env opt w).1 ≤ 1) :
    (Main.main env opt w).1 = 0 ↔
      reqs ≠ [] ∧ (∀ r ∈ reqs, ∃ e ∈ es, e.ref.id = r.id) ∧ ∀ e ∈ es, ∃ r ∈ reqs, Names upper e r := by
  have hg := good ht h
  have hnamed : ((upper.referenceWithTitle == some true) = false) ↔ upper.referenceWithTitle ≠ some true := by simp
  unfold Names
  rw [← hnamed]
  rw [C75_green env opt w (fun cfg hc => by
    cases GoodConfig_unique hc hg
    exact hj)]
  constructor
  · rintro ⟨cfg, c, js, w', h1, h2, -, -, h3⟩
    cases GoodConfig_unique h1 hg
    exact (shape hs h h2).2.clean.1 h3.2
  · intro hc
    have : ∃ c js w', AllRun env opt w c js w' := by
      have : (Main.main env opt w).1 = 0 ∨ (Main.main env opt w).1 = 1 := by omega
      rcases this with h0 | h1
      · obtain ⟨c, js, w', ha, -⟩ := (C28_exit_code_partial env opt w).1.1 h0
        exact ⟨c, js, w', ha⟩
      · obtain ⟨c, js, w', ha, -⟩ := (C28_exit_code_partial env opt w).2.1.1 h1
        exact ⟨c, js, w', ha⟩
    obtain ⟨c, js, w', cfg, h1, h2, -, h3, h4⟩ := this
    cases GoodConfig_unique h1 hg
    obtain ⟨k1, k2⟩ := shape hs h h2
    exact ⟨config, c, js, w', hg, h2, h3, h4, k1, k2.clean.2 hc⟩

/-- **C166** In any case, the requirements reported as uncovered are those without a mark. -/
theorem C166_gaps (hs : ReadsRust env.syn) (h : TwoLayers env w opt config upper code reqs es items) {c : Controller}
    (hn : Controller.new env w config opt.baseDir = .ok c) :
    ∃ tr, c.tracedGraph.tracedRelations = [tr] ∧
      ∀ id, id ∈ tr.uncovered ↔ ∃ r ∈ reqs, r.id = id ∧ ∀ e ∈ es, e.ref.id ≠ id := by
  have sh := (shape hs h hn).2
  have hk := (C18_consistent hn).1
  have ht := (C18_no_panic hn).1
  have hrel : ⟨upper.id, [code.id]⟩ ∈ c.graph.relations := by rw [sh.relations]; exact List.mem_singleton.2 rfl
  have hl : c.tracedGraph.tracedRelations = [tracedRelation c.graph ⟨upper.id, [code.id]⟩] := by
    obtain ⟨_, e⟩ := (trace_ok_iff hk c.tracedGraph).1 ht
    rw [e]
    show c.graph.relations.map _ = _
    rw [sh.relations]
    rfl
  refine ⟨_, hl, fun id => ?_⟩
  have hmem : tracedRelation c.graph ⟨upper.id, [code.id]⟩ ∈ c.tracedGraph.tracedRelations := by rw [hl]; exact List.mem_singleton.2 rfl
  have hget : c.tracedGraph.tracedRelations[0]? = some (tracedRelation c.graph ⟨upper.id, [code.id]⟩) := by rw [hl]; rfl
  obtain ⟨art, h1, -, h2⟩ := C02_uncovered_complement hk ht hmem
  rw [h2]
  have h1 : c.graph.artefacts.get upper.id = some art := h1
  constructor
  · rintro ⟨⟨r, hr⟩, h3⟩
    have hid : r.id = id := hk.requirement _ _ h1 _ _ hr
    subst hid
    refine ⟨r, (sh.above r).1 ⟨art, h1, hr⟩, rfl, fun e he hid => ?_⟩
    obtain ⟨i, k1, k2⟩ := (sh.marks e.ref).2 ⟨e, he, rfl⟩
    have he := (sh.establishes hrel code.id r i e.ref .upwards).2 ⟨rfl, rfl, (sh.above r).1 ⟨art, h1, hr⟩, k1, k2, hid⟩
    exact h3 _ ((C01_coverage_exact hk ht hget ⟨r.id, i.id, e.ref.location, .upwards⟩).2
      ⟨_, _, _, _, _, by rw [sh.relations]; rfl, he, rfl⟩) rfl
  · rintro ⟨r, hr, rfl, h3⟩
    obtain ⟨art', h4, h5⟩ := (sh.above r).2 hr
    rw [h1] at h4
    cases h4
    refine ⟨⟨r, h5⟩, fun cv hc hid => ?_⟩
    obtain ⟨rel, a, x, y, ref, k1, k2, e1⟩ := (C01_coverage_exact hk ht hget cv).1 hc
    obtain ⟨-, -, k3, k4, k5, k6⟩ := (sh.establishes (List.mem_of_getElem? k1) _ _ _ _ _).1 k2
    obtain ⟨e, he, rfl⟩ := (sh.marks ref).1 ⟨y, k4, k5⟩
    rw [e1] at hid
    exact h3 e he (k6.trans hid)

end TwoLayers

namespace TwoLayersExample

open CtrlExample TwoLayers

def upper : ArtefactConfig := ⟨c!"REQ", [c!"req.md"], .markdown, none, some true⟩
def code : ArtefactConfig := ⟨c!"CODE", [c!"a.rs"], .rust, none, none⟩

def config : Config where
  version := some 0
  artefacts := [upper, code]
  relations := [⟨c!"REQ", [c!"CODE"]⟩]
  jobs := some (BMap.ofList [(c!"trace", ⟨.trace, .gnuError, c!"-", none⟩)])
  defaultJobs := some [c!"trace"]

/-- The readers in place of the libraries -/
def e : Env := { TomlExample.env with syn := RustTextExample.syn }

theorem e_toml : e.ReadsToml := TomlExample.env_readsToml
theorem e_rust : ReadsRust e.syn := RustTextExample.reads

def md : Str := c!"# REQ_A: title a\nText.\n# REQ_B: title b\n"

def rs : Str := c!"fn f() { requirement_covered!(REQ_A, \"title a\"); }
mod m {
  fn g() {
    requirement_covered!(REQ_B, \"title b\"); // all of it
    requirement_covered!(REQ_A, \"title a\");
  }
}
"

def w (t : Str) : World := world [(c!"requirements.toml", TomlText.written config), (c!"p/req.md", md), (c!"p/a.rs", t)]

def reqs : List Requirement := [
  { MovedExample.heading c!"p/req.md" c!"REQ_A" c!"title a" 1 with attributes := BMap.ofList [(c!"Description", c!"Text.\n")] },
  MovedExample.heading c!"p/req.md" c!"REQ_B" c!"title b" 3]

def at_ (line column : Nat) : Location := ⟨c!"p/a.rs", some (.lineAndColumn line column)⟩

def markA : Entry := ⟨[c!"f"], some (at_ 1 3), ⟨c!"REQ_A", some c!"title a", at_ 1 9⟩⟩
def markB : Entry := ⟨[c!"m", c!"g"], some (at_ 3 5), ⟨c!"REQ_B", some c!"title b", at_ 4 4⟩⟩
def again : Entry := ⟨[c!"m", c!"g"], some (at_ 3 5), ⟨c!"REQ_A", some c!"title a", at_ 5 4⟩⟩

def f : Requirement := ⟨c!"f", none, at_ 1 3, [markA.ref], [], [], .empty⟩
def g : Requirement := ⟨c!"m::g", none, at_ 3 5, [markB.ref, again.ref], [], [], .empty⟩

def mark (line column : Nat) (id title : Str) : Rs.Mac := ⟨[c!"requirement_covered"], line, column,
  [⟨true, id, line, column + 21⟩, ⟨false, c!",", line, column + 21 + id.length⟩,
    ⟨false, c!"\"" ++ title ++ c!"\"", line, column + 23 + id.length⟩]⟩

def forest : Rs.Forest :=
  .item (.fn c!"f") 1 3 (.mac (mark 1 9 c!"REQ_A" c!"title a") .nil)
  (.item (.mod c!"m") 2 4 (.item (.fn c!"g") 3 5
    (.mac (mark 4 4 c!"REQ_B" c!"title b") (.mac (mark 5 4 c!"REQ_A" c!"title a") .nil)) .nil) .nil)

theorem marks : AllMarks e.syn.debug c!"p/a.rs" (occs c!"p/a.rs" [] none forest) [markA, markB, again] [] :=
  .good (o := ⟨_, _, mark 1 9 c!"REQ_A" c!"title a"⟩) rfl (.inr (.inr ⟨_, _, _, _, rfl, rfl, rfl, ⟨by decide, by decide, by decide⟩, rfl⟩)) <|
  .good (o := ⟨_, _, mark 4 4 c!"REQ_B" c!"title b"⟩) rfl (.inr (.inr ⟨_, _, _, _, rfl, rfl, rfl, ⟨by decide, by decide, by decide⟩, rfl⟩)) <|
  .good (o := ⟨_, _, mark 5 4 c!"REQ_A" c!"title a"⟩) rfl (.inr (.inr ⟨_, _, _, _, rfl, rfl, rfl, ⟨by decide, by decide, by decide⟩, rfl⟩))
    .nil

theorem grouped : Grouped [f, g] [markA, markB, again] := by
  refine ⟨[(f, [markA]), (g, [markB, again])], rfl, rfl, ?_, ?_⟩
  · intro x hx
    simp only [List.mem_cons, List.not_mem_nil, or_false] at hx
    rcases hx with rfl | rfl
    · refine ⟨rfl, fun y hy => ?_, ⟨_, _, rfl, rfl⟩, rfl, rfl, rfl, rfl⟩
      cases List.mem_singleton.1 hy
      exact .one _
    · refine ⟨rfl, fun y hy => ?_, ⟨_, _, rfl, rfl⟩, rfl, rfl, rfl, rfl⟩
      simp only [List.mem_cons, List.not_mem_nil, or_false] at hy
      rcases hy with rfl | rfl <;> exact .cons _ (.one _)
  · intro a r s b h
    match a with
    | [] => cases h; decide
    | [_] => cases h
    | _ :: _ :: a =>
      have := congrArg List.length h
      simp at this

theorem project : TwoLayers e (w rs) args config upper code reqs [markA, markB, again] [f, g] where
  text := ⟨TomlText.written config, by decide +kernel,
    C162_written config (fun v h => by cases h; decide) (fun m h => by cases h; decide +kernel)⟩
  version := fun v h => by cases h; rfl
  artefacts := .inl rfl
  relations := rfl
  different := by decide
  markdown := rfl
  rust := rfl
  top := by decide
  document := ⟨c!"req.md", rfl, md, by decide +kernel, (C81_file ..).1 (by decide +kernel)⟩
  ids := by decide
  plain := by decide
  titles := by decide
  files := ⟨[c!"p/a.rs"], .inl ⟨rfl, by decide, .cons (fs := [c!"p/a.rs"]) (by decide +kernel) .nil⟩,
    .cons (text := rs) (f := forest) (by decide +kernel) ((RustText.C164_reader ..).1 (by decide +kernel)) marks grouped .nil⟩
  itemIds := by decide
  untitled := by decide
  apart := by decide

example : (Main.main e args (w rs)).1 = 0 :=
  (C166_green e_toml e_rust project ⟨c!"trace", by decide, _, by rfl, by decide, by decide⟩ (by decide +kernel)).2
    ⟨by decide, by decide, fun x hx => by
      simp only [List.mem_cons, List.not_mem_nil, or_false] at hx
      rcases hx with rfl | rfl | rfl
      · exact ⟨_, List.mem_cons_self, rfl, .inl ⟨rfl, by decide⟩⟩
      · exact ⟨_, List.mem_cons_of_mem _ List.mem_cons_self, rfl, .inl ⟨rfl, by decide⟩⟩
      · exact ⟨_, List.mem_cons_self, rfl, .inl ⟨rfl, by decide⟩⟩⟩

/-- Without the mark, with a mark for nothing, without the title and with another title: not green -/
example : (Main.main e args (w c!"fn f() { requirement_covered!(REQ_A, \"title a\"); }")).1 = 1 ∧
    (Main.main e args (w (rs ++ c!"fn h() { requirement_covered!(REQ_C, \"title c\"); }"))).1 = 1 ∧
    (Main.main e args (w (rs ++ c!"fn h() { requirement_covered!(REQ_A); }"))).1 = 1 ∧
    (Main.main e args (w (rs ++ c!"fn h() { requirement_covered!(REQ_A, \"title b\"); }"))).1 = 1 ∧
    (Main.main e args (w (rs ++ c!"fn h() { requirement_covered!(REQ_A, \"title a\"); }"))).1 = 0 := by
  decide +kernel

end TwoLayersExample

end Reqtrace
