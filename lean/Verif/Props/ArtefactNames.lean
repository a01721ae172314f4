import Verif.Spec.ArtefactNames
import Verif.Props.Unrelated
import Verif.Props.Renamed

/-!
# C151: names of artefacts are only names
-/

namespace Reqtrace

open Spec

section
variable {f : ArtefactId → ArtefactId} {g g' : Graph} (hk : Keyed g) (hk' : Keyed g') (hn : RenamesArtefacts f g g')
include hk hk' hn

omit hk hk' in
theorem Spec.RenamesArtefacts.get_none {a : ArtefactId} (h : g.artefacts.get a = none) : g'.artefacts.get (f a) = none := by
  cases h' : g'.artefacts.get (f a) with
  | none => rfl
  | some art' =>
    obtain ⟨b, art, e, hb⟩ := hn.back _ _ h'
    cases hn.injective _ _ e
    rw [h] at hb; cases hb

omit hk hk' in
theorem Spec.RenamesArtefacts.defines (a : ArtefactId) (r : Requirement) : Defines g' (f a) r ↔ Defines g a r := by
  unfold Defines
  cases h : g.artefacts.get a with
  | none => rw [hn.get_none h]
  | some art =>
    obtain ⟨art', h1, h2⟩ := hn.there a art h
    rw [h1]
    simp [h2.requirements]

omit hk hk' in
theorem Spec.RenamesArtefacts.defined {b : ArtefactId} {r : Requirement} (h : Defines g' b r) : ∃ a, b = f a := by
  obtain ⟨art', h1, -⟩ := h
  obtain ⟨a, _, e, -⟩ := hn.back _ _ h1
  exact ⟨a, e⟩

omit hk hk' in
theorem Spec.RenamesArtefacts.unique (hu : UniqueIds g) : UniqueIds g' := by
  intro b b' r s hr hs e
  obtain ⟨a, rfl⟩ := hn.defined hr
  obtain ⟨a', rfl⟩ := hn.defined hs
  rw [hu a a' r s ((hn.defines a r).1 hr) ((hn.defines a' s).1 hs) e]

omit hk hk' in
theorem Spec.RenamesArtefacts.unique_iff : UniqueIds g' ↔ UniqueIds g := by
  refine ⟨fun hu a b r s hr hs e => ?_, hn.unique⟩
  exact hn.injective _ _ (hu _ _ r s ((hn.defines a r).2 hr) ((hn.defines b s).2 hs) e)

variable (hu : UniqueIds g)
include hu

/-- Without repeated ids an artefact owns all it has. -/
theorem Spec.RenamesArtefacts.owned (a : ArtefactId) : owned g' (f a) = owned g a := by
  have all : ∀ {g : Graph} (_ : Keyed g) (_ : UniqueIds g) (a : ArtefactId) (art : Artefact), g.artefacts.get a = some art →
      Spec.owned g a = art.requirements.values := by
    intro g hk hu a art h
    have key : ∀ r ∈ art.requirements.values, r ∈ Spec.owned g a := by
      intro r hr
      obtain ⟨k, hr⟩ := (BMap.mem_values_iff _ _).1 hr
      have := hk.requirement a art h k r hr
      subst this
      exact (mem_owned hk a r).2 (defines_owner hu ⟨art, h, hr⟩)
    unfold Spec.owned at key ⊢
    rw [h] at key ⊢
    exact List.filter_eq_self.2 fun r hr => (List.mem_filter.1 (key r hr)).2
  cases h : g.artefacts.get a with
  | none => unfold Spec.owned; rw [h, hn.get_none h]
  | some art =>
    obtain ⟨art', h1, h2⟩ := hn.there a art h
    rw [all hk hu a art h, all hk' (hn.unique hu) _ art' h1, h2.requirements]

omit hk hk' hu in
theorem Spec.RenamesArtefacts.upperReqs (rel : Relation) : upperReqs g' (renamedRelation f rel) = upperReqs g rel := by
  unfold Spec.upperReqs renamedRelation
  simp only
  cases h : g.artefacts.get rel.upper with
  | none => rw [hn.get_none h]
  | some art =>
    obtain ⟨art', h1, h2⟩ := hn.there _ art h
    rw [h1]
    exact congrArg BMap.values h2.requirements

omit hk hk' hu in
theorem Spec.RenamesArtefacts.needsTitle (a : ArtefactId) : needsTitle g' (f a) = needsTitle g a := by
  unfold Spec.needsTitle
  cases h : g.artefacts.get a with
  | none => rw [hn.get_none h]
  | some art =>
    obtain ⟨art', h1, h2⟩ := hn.there _ art h
    rw [h1]
    exact h2.titles

/-- The same event in an artefact with another name. -/
def artefactEvent (f : ArtefactId → ArtefactId) (e : Event) : Event := { e with lowerArt := f e.lowerArt }

theorem Spec.RenamesArtefacts.reqEvents (rel : Relation) (u : Requirement) :
    reqEvents g' (renamedRelation f rel) u = (reqEvents g rel u).map (artefactEvent f) := by
  unfold Spec.reqEvents downEvents upEvents renamedRelation
  simp only [List.map_append, List.map_flatMap, List.flatMap_map, hn.owned hk hk' hu, List.map_map]
  rfl

theorem Spec.RenamesArtefacts.relEvents (rel : Relation) :
    relEvents g' (renamedRelation f rel) = (relEvents g rel).map (artefactEvent f) := by
  unfold Spec.relEvents
  rw [hn.upperReqs, List.map_flatMap]
  exact flatMap_congr' fun u _ => hn.reqEvents hk hk' hu rel u

theorem Spec.RenamesArtefacts.allEvents : allEvents g' = (allEvents g).map (artefactEvent f) := by
  unfold Spec.allEvents
  rw [hn.relations, List.flatMap_map, List.map_flatMap]
  exact flatMap_congr' fun rel _ => hn.relEvents hk hk' hu rel

theorem Spec.RenamesArtefacts.tracedRelation (rel : Relation) : tracedRelation g' (renamedRelation f rel) =
    { tracedRelation g rel with relation := renamedRelation f rel } := by
  unfold Spec.tracedRelation uncovered
  rw [hn.relEvents hk hk' hu, hn.upperReqs, List.map_map]
  simp only [hn.reqEvents hk hk' hu, List.isEmpty_map]
  rfl

theorem Spec.RenamesArtefacts.relationErrors (rel : Relation) :
    relationErrors g' (renamedRelation f rel) = (relationErrors g rel).map (artefactError f) := by
  unfold Spec.relationErrors
  rw [hn.relEvents hk hk' hu, List.map_append, List.flatMap_map, List.map_flatMap]
  congr 1
  · refine flatMap_congr' fun e _ => ?_
    unfold titleErrors artefactEvent renamedRelation
    simp only [hn.needsTitle]
    split <;> split <;> rfl
  · rw [List.isEmpty_map]
    split <;> rfl

theorem Spec.RenamesArtefacts.owner (id : RequirementId) : owner g' id = owner g id := by
  have key : ∀ r, Spec.owner g' id = some r ↔ Spec.owner g id = some r := by
    intro r
    constructor
    · intro h
      obtain ⟨h1, b, h2⟩ := exists_owner hk' h
      obtain ⟨a, rfl⟩ := hn.defined ((mem_owned hk' _ _).1 h2).1
      rw [hn.owned hk hk' hu] at h2
      rw [← h1]
      exact owner_of_owned hk h2
    · intro h
      obtain ⟨h1, a, h2⟩ := exists_owner hk h
      rw [← hn.owned hk hk' hu] at h2
      rw [← h1]
      exact owner_of_owned hk' h2
  exact Option.ext fun r => by simpa using key r

theorem Spec.RenamesArtefacts.owned_entries (P : Requirement → Prop) :
    (∃ e ∈ g'.artefacts.entries, ∃ r ∈ Spec.owned g' e.1, P r) ↔ ∃ e ∈ g.artefacts.entries, ∃ r ∈ Spec.owned g e.1, P r := by
  constructor
  · rintro ⟨⟨b, art'⟩, h1, r, h2, h3⟩
    obtain ⟨a, art, e, h4⟩ := hn.back b art' ((BMap.get_eq_some_iff _ _ _).2 h1)
    simp only at h2
    rw [e, hn.owned hk hk' hu] at h2
    exact ⟨(a, art), (BMap.get_eq_some_iff _ _ _).1 h4, r, h2, h3⟩
  · rintro ⟨⟨a, art⟩, h1, r, h2, h3⟩
    obtain ⟨art', h4, -⟩ := hn.there a art ((BMap.get_eq_some_iff _ _ _).2 h1)
    refine ⟨(f a, art'), (BMap.get_eq_some_iff _ _ _).1 h4, r, ?_, h3⟩
    rw [hn.owned hk hk' hu]
    exact h2

theorem Spec.RenamesArtefacts.linked (d : CoverageDirection) (k : RequirementId × RequirementId) :
    linked g' d k = linked g d k := by
  unfold Spec.linked
  rw [hn.allEvents hk hk' hu, List.any_map]
  rfl

theorem Spec.RenamesArtefacts.coverLinks : coverLinks g' = coverLinks g := by
  refine sorted_pairs_ext (BMap.keys_sorted _) (BMap.keys_sorted _) fun k => ?_
  show k ∈ Spec.coverLinks g' ↔ k ∈ Spec.coverLinks g
  rw [mem_coverLinks, mem_coverLinks]
  exact hn.owned_entries hk hk' hu _

theorem Spec.RenamesArtefacts.dependLinks : dependLinks g' = dependLinks g := by
  refine sorted_pairs_ext (BMap.keys_sorted _) (BMap.keys_sorted _) fun k => ?_
  show k ∈ Spec.dependLinks g' ↔ k ∈ Spec.dependLinks g
  rw [mem_dependLinks, mem_dependLinks]
  exact hn.owned_entries hk hk' hu _

/-- **C151** Tracing: if no id is in two artefacts, other names for the artefacts change nothing but these names in the
result: the coverage, the uncovered and derived requirements and the errors are the same, in the same order. -/
theorem C151_trace {tg : TracedGraph} (h : trace g = .ok tg) : ∃ tg', trace g' = .ok tg' ∧ ResultCalled f tg tg' := by
  obtain ⟨htr, rfl⟩ := (trace_ok_iff hk tg).1 h
  have htr' : Traceable g' := by
    intro rel' hrel
    rw [hn.relations] at hrel
    obtain ⟨rel, hr, rfl⟩ := List.mem_map.1 hrel
    obtain ⟨art, h1, h2⟩ := htr rel hr
    obtain ⟨art', h3, h4⟩ := hn.there _ art h1
    refine ⟨art', h3, fun hne b hb => ?_⟩
    obtain ⟨a, ha, rfl⟩ := List.mem_map.1 hb
    rw [h4.requirements] at hne
    obtain ⟨art1, h5⟩ := Option.isSome_iff_exists.1 (h2 hne a ha)
    obtain ⟨art2, h6, -⟩ := hn.there _ art1 h5
    rw [h6]; rfl
  have dup : ∀ {g : Graph}, Keyed g → UniqueIds g → duplicateErrors g = [] := by
    intro g hk hu
    refine List.eq_nil_iff_forall_not_mem.2 fun e he => ?_
    obtain ⟨first, again, -, a, b, h1, h2, h3, h4⟩ := (mem_duplicateErrors hk e).1 he
    have := hu b a again first h2 h1.1 h3
    subst this
    exact lt_irrefl_cmp h4
  refine ⟨traced g', (trace_ok_iff hk' _).2 ⟨htr', rfl⟩, ?_, ?_, ?_⟩
  · show g'.relations.map (Spec.tracedRelation g') = (g.relations.map (Spec.tracedRelation g)).map _
    rw [hn.relations, List.map_map, List.map_map]
    exact List.map_congr_left fun rel _ => hn.tracedRelation hk hk' hu rel
  · intro a
    show (derivedMap g').get (f a) = (derivedMap g).get a
    unfold derivedMap
    rw [get_ofList_map, get_ofList_map]
    cases ha : g.artefacts.get a with
    | none => rw [hn.get_none ha]; rfl
    | some art =>
      obtain ⟨art', h1, h2⟩ := hn.there a art ha
      rw [h1]
      simp only [Option.map_some, derived]
      rw [hn.owned hk hk' hu, hn.allEvents hk hk' hu, h2.ignore]
      simp only [List.all_map]
      rfl
  · show duplicateErrors g' ++ g'.relations.flatMap (Spec.relationErrors g') ++ danglingCovers g' ++ danglingDepends g' =
      (duplicateErrors g ++ g.relations.flatMap (Spec.relationErrors g) ++ danglingCovers g ++ danglingDepends g).map _
    rw [dup hk hu, dup hk' (hn.unique hu)]
    simp only [List.nil_append, List.map_append]
    congr 1
    · congr 1
      · rw [hn.relations, List.flatMap_map, List.map_flatMap]
        exact flatMap_congr' fun rel _ => hn.relationErrors hk hk' hu rel
      · unfold danglingCovers
        rw [hn.coverLinks hk hk' hu, List.map_filterMap]
        simp only [hn.linked hk hk' hu, hn.owner hk hk' hu]
        refine Meta.filterMap_congr fun k _ => ?_
        simp only [Option.map_bind]
        cases Spec.owner g k.2 with
        | none => rfl
        | some l => cases hf : l.covers.find? (fun r => r.id == k.1) <;> simp [hf, artefactError]
    · unfold danglingDepends
      rw [hn.dependLinks hk hk' hu, List.map_filterMap]
      simp only [hn.linked hk hk' hu, hn.owner hk hk' hu]
      refine Meta.filterMap_congr fun k _ => ?_
      simp only [Option.map_bind]
      cases Spec.owner g k.1 with
      | none => rfl
      | some l => cases hf : l.depends.find? (fun r => r.id == k.2) <;> simp [hf, artefactError]

end

/-- **C151** An id that is in two artefacts is reported whatever the names of the artefacts are. -/
theorem C151_duplicate {f : ArtefactId → ArtefactId} {g g' : Graph} (hk : Keyed g) (hk' : Keyed g')
    (hn : RenamesArtefacts f g g') {tg tg' : TracedGraph} (h : trace g = .ok tg) (h' : trace g' = .ok tg')
    (hu : ¬ UniqueIds g) : (∃ r s, .duplicateRequirement r s ∈ tg.errors) ∧ ∃ r s, .duplicateRequirement r s ∈ tg'.errors := by
  constructor
  · refine Classical.byContradiction fun hno => hu ((C08_none_iff_unique hk h).1 fun r s hm => hno ⟨r, s, hm⟩)
  · refine Classical.byContradiction fun hno => hu (hn.unique_iff.1 ((C08_none_iff_unique hk' h').1 fun r s hm => hno ⟨r, s, hm⟩))

/-! ## The configuration -/

namespace Called

variable {f : ArtefactId → ArtefactId}

theorem parseArtefact_called {env : Env} {w : World} {base : Path} (ac : ArtefactConfig) :
    parseArtefact env w (renamedEntry f ac) base = parseArtefact env w ac base ∨
    ∃ e e', NamesArtefact ac.id (f ac.id) e e' ∧ parseArtefact env w ac base = .ok ([], [], [e]) ∧
      parseArtefact env w (renamedEntry f ac) base = .ok ([], [], [e']) := by
  have single : parseSingleFile env w (renamedEntry f ac) base = parseSingleFile env w ac base ∨
      ∃ e e', NamesArtefact ac.id (f ac.id) e e' ∧ parseSingleFile env w ac base = .ok ([], [], [e]) ∧
        parseSingleFile env w (renamedEntry f ac) base = .ok ([], [], [e']) := by
    have many : ∀ ps : List Str, (∀ p, ps ≠ [p]) → ac.paths = ps →
        ∃ e e', NamesArtefact ac.id (f ac.id) e e' ∧ parseSingleFile env w ac base = .ok ([], [], [e]) ∧
          parseSingleFile env w (renamedEntry f ac) base = .ok ([], [], [e']) := by
      intro ps hps hp
      have := NamesArtefact.notOne (a := ac.id) (b := f ac.id) (ac.parser.debug ++ (c!", got " ++ debugStrs env ps))
      refine ⟨_, _, this, ?_, ?_⟩
      · unfold parseSingleFile
        rw [hp]
        match ps, hps with
        | [], _ => simp only [List.append_assoc]
        | [p], h => exact absurd rfl (h p)
        | p :: q :: ps, _ => simp only [List.append_assoc]
      · unfold parseSingleFile
        simp only [renamedEntry]
        rw [hp]
        match ps, hps with
        | [], _ => simp only [List.append_assoc]
        | [p], h => exact absurd rfl (h p)
        | p :: q :: ps, _ => simp only [List.append_assoc]
    cases hp : ac.paths with
    | nil => exact .inr (many [] (by simp) hp)
    | cons p ps =>
      cases ps with
      | nil => left; unfold parseSingleFile; simp only [renamedEntry, hp]
      | cons q ps => exact .inr (many _ (by simp) hp)
  unfold parseArtefact
  cases hpar : ac.parser with
  | rust =>
    simp only [renamedEntry, hpar, parseMultipleFiles]
    by_cases hp : ac.paths = []
    · rw [if_pos hp, if_pos hp]
      exact .inr ⟨_, _, .none, rfl, rfl⟩
    · rw [if_neg hp, if_neg hp]
      exact .inl rfl
  | _ => simp only [hpar, show (renamedEntry f ac).parser = ac.parser from rfl]; exact single

theorem makeArtefact_called {env : Env} {w : World} {base : Path} {roots roots' : BMap ArtefactId Bool}
    (hr : ∀ a, roots'.get (f a) = roots.get a) {ac : ArtefactConfig} {a : Artefact}
    (h : makeArtefact env w base roots ac = .ok a) :
    ∃ a', makeArtefact env w base roots' (renamedEntry f ac) = .ok a' ∧ ArtefactCalled f a a' := by
  unfold makeArtefact at h ⊢
  rw [show (renamedEntry f ac).id = f ac.id from rfl, hr]
  cases hroot : roots.get ac.id with
  | none => rw [hroot] at h; cases h
  | some root =>
    rw [hroot] at h
    simp only [orPanic, bind, Except.bind, parseFromConfig] at h ⊢
    rcases parseArtefact_called (f := f) (env := env) (w := w) (base := base) ac with he | ⟨e, e', he, h1, h2⟩
    · rw [he]
      cases hp : parseArtefact env w ac base with
      | error e => rw [hp] at h; cases h
      | ok v =>
        rw [hp] at h
        cases h
        exact ⟨_, rfl, rfl, rfl, ⟨rfl, rfl, rfl⟩, .inl rfl⟩
    · rw [h1] at h
      rw [h2]
      cases h
      refine ⟨_, rfl, rfl, rfl, ⟨rfl, rfl, rfl⟩, .inr ⟨e, e', he, ?_, ?_, rfl⟩⟩
      · simp only [collectRequirements]; split <;> rfl
      · simp only [collectRequirements]; split <;> rfl

theorem makeArtefacts_called (hf : ∀ a b, f a = f b → a = b) {env : Env} {w : World} {base : Path}
    {roots roots' : BMap ArtefactId Bool} (hr : ∀ a, roots'.get (f a) = roots.get a) (acs : List ArtefactConfig) :
    ∀ {m m' m1 : BMap ArtefactId Artefact}, ArtefactsCalled f m m' → makeArtefacts env w base roots acs m = .ok m1 →
    ∃ m1', makeArtefacts env w base roots' (acs.map (renamedEntry f)) m' = .ok m1' ∧ ArtefactsCalled f m1 m1' := by
  induction acs with
  | nil => intro m m' m1 hm h; cases h; exact ⟨m', rfl, hm⟩
  | cons ac acs ih =>
    intro m m' m1 hm h
    unfold makeArtefacts at h
    cases ha : makeArtefact env w base roots ac with
    | error e => rw [ha] at h; cases h
    | ok a =>
      rw [ha] at h
      obtain ⟨a', h1, h2⟩ := makeArtefact_called hr ha
      rw [List.map_cons]
      unfold makeArtefacts
      rw [h1]
      refine ih ⟨fun x art hx => ?_, fun b art' hb => ?_⟩ h
      · rw [BMap.get_insert] at hx
        rw [BMap.get_insert, show (renamedEntry f ac).id = f ac.id from rfl]
        by_cases e : x = ac.id
        · subst e
          rw [if_pos rfl] at hx
          cases hx
          exact ⟨a', if_pos rfl, h2⟩
        · rw [if_neg e] at hx
          rw [if_neg (fun e' => e (hf _ _ e'))]
          exact hm.there x art hx
      · rw [BMap.get_insert] at hb
        by_cases e : b = f ac.id
        · subst e
          exact ⟨ac.id, a, rfl, by rw [BMap.get_insert, if_pos rfl]⟩
        · rw [show (renamedEntry f ac).id = f ac.id from rfl, if_neg e] at hb
          obtain ⟨x, art, rfl, hx⟩ := hm.back b art' hb
          refine ⟨x, art, rfl, ?_⟩
          rw [BMap.get_insert, if_neg (fun e' => e (by rw [e']))]
          exact hx

theorem configured_called (hf : ∀ a b, f a = f b → a = b) (config : Config) (a : ArtefactId) :
    Configured (renamedConfig f config) (f a) ↔ Configured config a := by
  unfold Configured renamedConfig
  simp only [List.mem_map]
  constructor
  · rintro ⟨_, ⟨ac, h, rfl⟩, e⟩; exact ⟨ac, h, hf _ _ e⟩
  · rintro ⟨ac, h, rfl⟩; exact ⟨_, ⟨ac, h, rfl⟩, rfl⟩

theorem roots_called (hf : ∀ a b, f a = f b → a = b) {config : Config} {roots : BMap ArtefactId Bool}
    (h : findRoots config.relations (BMap.ofList (config.artefacts.map (fun ac => (ac.id, true)))) = .ok roots)
    (hc : RelationsConfigured config) :
    ∃ roots', findRoots (renamedConfig f config).relations
      (BMap.ofList ((renamedConfig f config).artefacts.map (fun ac => (ac.id, true)))) = .ok roots' ∧
      ∀ a, roots'.get (f a) = roots.get a := by
  have hc' : RelationsConfigured (renamedConfig f config) := by
    intro rel hrel
    obtain ⟨rel, hr, rfl⟩ := List.mem_map.1 hrel
    refine ⟨(configured_called hf config _).2 (hc rel hr).1, fun b hb => ?_⟩
    obtain ⟨a, ha, rfl⟩ := List.mem_map.1 hb
    exact (configured_called hf config _).2 ((hc rel hr).2 a ha)
  obtain ⟨roots', h', -⟩ := (roots_ok (renamedConfig f config)).1 hc'
  refine ⟨roots', h', fun a => ?_⟩
  rw [(findRoots_ok _ _).2.2 _ h, (findRoots_ok _ _).2.2 _ h', allRoots_get, allRoots_get]
  have hl : (∃ rel ∈ (renamedConfig f config).relations, f a ∈ rel.lower) ↔ ∃ rel ∈ config.relations, a ∈ rel.lower := by
    unfold renamedConfig
    simp only [List.mem_map]
    constructor
    · rintro ⟨_, ⟨rel, h, rfl⟩, e⟩
      obtain ⟨b, hb, e⟩ := List.mem_map.1 e
      cases hf _ _ e
      exact ⟨rel, h, hb⟩
    · rintro ⟨rel, h, e⟩; exact ⟨_, ⟨rel, h, rfl⟩, List.mem_map_of_mem e⟩
  have hc := configured_called hf config a
  simp only [hl]
  congr 1
  by_cases h : Configured config a
  · rw [if_pos h, if_pos (hc.2 h)]
  · rw [if_neg h, if_neg fun h' => h (hc.1 h')]

theorem parseProblem_called {m m' : BMap ArtefactId Artefact} (h : ArtefactsCalled f m m') : ParseProblem m' ↔ ParseProblem m := by
  have key : ∀ {a a' : Artefact}, ArtefactCalled f a a' → ((∃ e, e ∈ a'.errors) ↔ ∃ e, e ∈ a.errors) := by
    intro a a' h
    rcases h.errors with h | ⟨e, e', -, h1, h2, -⟩
    · rw [h]
    · rw [h1, h2]; simp
  constructor
  · rintro ⟨b, art', e, h1, h2⟩
    obtain ⟨a, art, rfl, h3⟩ := h.back b art' h1
    obtain ⟨art1, h4, h5⟩ := h.there a art h3
    rw [h1] at h4
    cases h4
    obtain ⟨e', he⟩ := (key h5).1 ⟨e, h2⟩
    exact ⟨a, art, e', h3, he⟩
  · rintro ⟨a, art, e, h1, h2⟩
    obtain ⟨art', h4, h5⟩ := h.there a art h1
    obtain ⟨e', he⟩ := (key h5).2 ⟨e, h2⟩
    exact ⟨_, art', e', h4, he⟩

theorem renames {g g' : Graph} (hf : ∀ a b, f a = f b → a = b) (h : ArtefactsCalled f g.artefacts g'.artefacts)
    (hr : g'.relations = g.relations.map (renamedRelation f)) : RenamesArtefacts f g g' :=
  ⟨hf, hr, fun a art ha => by obtain ⟨art', h1, h2⟩ := h.there a art ha; exact ⟨art', h1, h2.content⟩, h.back⟩

end Called

/-- **C151** The program, given a configuration in which the artefacts have other names, no two the same, finds the same
artefacts under these names; if no id is in two artefacts, the same result; and its jobs always find fault as before. -/
theorem C151_project {f : ArtefactId → ArtefactId} (hf : ∀ a b, f a = f b → a = b) {env : Env} {w : World} {base : Path}
    {config : Config} {c : Controller} (h : Controller.new env w config base = .ok c) :
    ∃ c', Controller.new env w (renamedConfig f config) base = .ok c' ∧
      ArtefactsCalled f c.graph.artefacts c'.graph.artefacts ∧
      c'.graph.relations = c.graph.relations.map (renamedRelation f) ∧
      (UniqueIds c.graph → ResultCalled f c.tracedGraph c'.tracedGraph) ∧ ∀ job, Detects c' job ↔ Detects c job := by
  have hret : ∃ c', Controller.new env w (renamedConfig f config) base = .ok c' := by
    obtain ⟨h1, h2⟩ := (C18_returns_iff env w config base).1 ⟨c, h⟩
    refine (C18_returns_iff env w _ base).2 ⟨fun rel hrel => ?_, fun ac' hac' => ?_⟩
    · obtain ⟨rel, hr, rfl⟩ := List.mem_map.1 hrel
      refine ⟨(Called.configured_called hf config _).2 (h1 rel hr).1, fun b hb => ?_⟩
      obtain ⟨a, ha, rfl⟩ := List.mem_map.1 hb
      exact (Called.configured_called hf config _).2 ((h1 rel hr).2 a ha)
    · obtain ⟨ac, hac, rfl⟩ := List.mem_map.1 hac'
      rcases Called.parseArtefact_called (f := f) (env := env) (w := w) (base := base) ac with he | ⟨e, e', -, -, h3⟩
      · rw [he]; exact h2 ac hac
      · exact ⟨_, h3⟩
  obtain ⟨c', h'⟩ := hret
  obtain ⟨roots, r1, r2, r3, r4, -⟩ := new_ok h
  obtain ⟨roots', s1, s2, s3, s4, -⟩ := new_ok h'
  obtain ⟨roots1, t1, t2⟩ := Called.roots_called hf r1 (new_relations h)
  rw [s1] at t1
  cases t1
  obtain ⟨m1, u1, u2⟩ := Called.makeArtefacts_called hf t2 config.artefacts
    (m := .empty) (m' := .empty) ⟨(fun _ _ h => by cases h), (fun _ _ h => by cases h)⟩ r2
  have hm : m1 = c'.graph.artefacts := Except.ok.inj (u1.symm.trans s2)
  subst hm
  have hrel : c'.graph.relations = c.graph.relations.map (renamedRelation f) := by rw [r3, s3]; rfl
  have hk := (C18_consistent h).1
  have hk' := (C18_consistent h').1
  have hn := Called.renames hf u2 hrel
  have hres : UniqueIds c.graph → ResultCalled f c.tracedGraph c'.tracedGraph := by
    intro hu
    obtain ⟨tg', v1, v2⟩ := C151_trace hk hk' hn hu r4
    rw [s4] at v1
    cases v1
    exact v2
  refine ⟨c', h', u2, hrel, hres, fun job => ?_⟩
  unfold Detects
  split
  · by_cases hu : UniqueIds c.graph
    · have hres := hres hu
      have a1 : c.tracedGraph.artefacts = c.graph.artefacts := (C11_frame hk r4).1
      have a2 : c'.tracedGraph.artefacts = c'.graph.artefacts := (C11_frame hk' s4).1
      unfold TraceProblem
      rw [a1, a2, hres.errors, hres.relations]
      refine or_congr ?_ (or_congr (Called.parseProblem_called u2) (or_congr ?_ ?_))
      · simp only [List.mem_map]
        exact ⟨fun ⟨_, e, h, _⟩ => ⟨e, h⟩, fun ⟨e, h⟩ => ⟨_, e, h, rfl⟩⟩
      · simp only [List.mem_map]
        constructor
        · rintro ⟨_, ⟨tr, h1, rfl⟩, h2⟩; exact ⟨tr, h1, h2⟩
        · rintro ⟨tr, h1, h2⟩; exact ⟨_, ⟨tr, h1, rfl⟩, h2⟩
      · constructor
        · rintro ⟨b, ids, r, h1, h2⟩
          have hb : b ∈ c'.graph.artefacts.keys := by
            have h3 := (C11_frame hk' s4)
            have h4 := ((trace_ok_iff hk' _).1 s4).2
            rw [h4] at h1
            have h1 : (derivedMap c'.graph).get b = some ids := h1
            unfold derivedMap at h1
            rw [get_ofList_map] at h1
            rw [BMap.mem_keys_iff_isSome]
            cases hb : c'.graph.artefacts.get b with
            | none => rw [hb] at h1; cases h1
            | some _ => rfl
          rw [BMap.mem_keys_iff_isSome] at hb
          obtain ⟨art', hb⟩ := Option.isSome_iff_exists.1 hb
          obtain ⟨a, art, rfl, -⟩ := hn.back b art' hb
          rw [hres.derived] at h1
          exact ⟨a, ids, r, h1, h2⟩
        · rintro ⟨a, ids, r, h1, h2⟩
          exact ⟨f a, ids, r, by rw [hres.derived]; exact h1, h2⟩
    · obtain ⟨⟨r, s, e1⟩, r', s', e2⟩ := C151_duplicate hk hk' hn r4 s4 hu
      exact ⟨fun _ => .inl ⟨_, e1⟩, fun _ => .inl ⟨_, e2⟩⟩
  · exact Called.parseProblem_called u2

/-- **C151** If all reports can be written, the exit code with the configuration in which the artefacts have other names is
the same. -/
theorem C151_exit {f : ArtefactId → ArtefactId} (hf : ∀ a b, f a = f b → a = b) {env : Env} {w : World}
    {opt opt' : Arguments} {config : Config} (hb : opt'.baseDir = opt.baseDir) (hj : opt'.jobs = opt.jobs)
    (hg : GoodConfig env w opt.configFile config) (hg' : GoodConfig env w opt'.configFile (renamedConfig f config))
    (h : (Main.main env opt w).1 ≤ 1) (h' : (Main.main env opt' w).1 ≤ 1) :
    (Main.main env opt w).1 = (Main.main env opt' w).1 := by
  have key : ∀ {c c' js js' v v'}, AllRun env opt w c js v → AllRun env opt' w c' js' v' →
      (Detected c' js' ↔ Detected c js) := by
    rintro c c' js js' v v' ⟨cfg, h1, h2, -, h3, -⟩ ⟨cfg', h1', h2', -, h3', -⟩
    cases GoodConfig_unique h1 hg
    cases GoodConfig_unique h1' hg'
    obtain ⟨c'', h4, -, -, -, h5⟩ := C151_project hf h2
    rw [hb, h4] at h2'
    cases h2'
    have hr : requested (renamedConfig f config) opt' = requested config opt := by
      unfold requested; rw [hj]; rfl
    rw [hr] at h3'
    have hmem : ∀ j, j ∈ js' ↔ j ∈ js := fun j => (h3'.mem j).trans (h3.mem j).symm
    unfold Detected
    simp only [hmem, h5]
  obtain ⟨a0, a1, -⟩ := C28_exit_code_partial env opt w
  obtain ⟨b0, b1, -⟩ := C28_exit_code_partial env opt' w
  have e : ∀ n : Nat, n ≤ 1 → n = 0 ∨ n = 1 := by omega
  rcases e _ h with x | x <;> rcases e _ h' with y | y
  · rw [x, y]
  · obtain ⟨c, js, v, p1, p2⟩ := a0.1 x
    obtain ⟨c', js', v', q1, q2⟩ := b1.1 y
    exact absurd ((key p1 q1).1 q2) p2
  · obtain ⟨c, js, v, p1, p2⟩ := a1.1 x
    obtain ⟨c', js', v', q1, q2⟩ := b0.1 y
    exact absurd ((key p1 q1).2 p2) q2
  · rw [x, y]

namespace CalledExample

open CtrlExample

/-- `REQ` and `CODE` exchange their names. -/
def f (s : ArtefactId) : ArtefactId := if s = c!"REQ" then c!"CODE" else if s = c!"CODE" then c!"REQ" else s

theorem f_injective : ∀ a b, f a = f b → a = b := by
  intro a b h
  unfold f at h
  repeat' split at h
  all_goals simp_all

/-- The coverage, the uncovered and the derived requirements, the errors of tracing and of the artefacts. -/
def found (c : PanicM Controller) : Option (List (Relation × List (RequirementId × RequirementId) × List RequirementId) ×
    List (ArtefactId × List RequirementId) × List (ArtefactId × Nat) × Nat) :=
  c.toOption.map fun c => (c.tracedGraph.tracedRelations.map fun tr => (tr.relation,
      tr.covered.map fun x => (x.upper, x.lower), tr.uncovered),
    c.tracedGraph.derived.entries, c.graph.artefacts.entries.map fun e => (e.1, e.2.errors.length), c.tracedGraph.errors.length)

set_option synthInstance.maxSize 2000 in
set_option synthInstance.maxHeartbeats 200000 in
/-- The example with the names of two artefacts exchanged. -/
example : found (Controller.new RenamedExample.e (world files) config c!"p") = some (
      [(⟨c!"REQ", [c!"CODE"]⟩, [(c!"REQ_A", c!"m::f"), (c!"REQ_B", c!"m::f")], [])],
      [(c!"CODE", [c!"m::(S as T)::g"]), (c!"ISSUE", []), (c!"REQ", [])], [(c!"CODE", 2), (c!"ISSUE", 1), (c!"REQ", 1)], 2) ∧
    found (Controller.new RenamedExample.e (world files) (renamedConfig f config) c!"p") = some (
      [(⟨c!"CODE", [c!"REQ"]⟩, [(c!"REQ_A", c!"m::f"), (c!"REQ_B", c!"m::f")], [])],
      [(c!"CODE", []), (c!"ISSUE", []), (c!"REQ", [c!"m::(S as T)::g"])], [(c!"CODE", 1), (c!"ISSUE", 1), (c!"REQ", 2)], 2) := by
  decide +kernel

example : ∃ c, Controller.new RenamedExample.e (world files) config c!"p" = .ok c ∧ UniqueIds c.graph := by
  cases h : Controller.new RenamedExample.e (world files) config c!"p" with
  | error e =>
    have : (Controller.new RenamedExample.e (world files) config c!"p").toOption.isSome = true := by decide +kernel
    rw [h] at this
    cases this
  | ok c =>
    refine ⟨c, rfl, ReportExample.unique_of_check ?_⟩
    have : (Controller.new RenamedExample.e (world files) config c!"p").toOption.map (fun c => ReportExample.uniqueCheck c.graph) =
        some true := by decide +kernel
    rw [h] at this
    exact Option.some.inj this

/-- Two configuration files, the second with the names exchanged. -/
def two : Env := { RenamedExample.e with
  tomlTree := fun b => .ok (ConfigRead.tree (if b = Utf8.encode c!"..." then config else renamedConfig f config)) }

def twoFiles : World := world (files ++ [(c!"other.toml", c!"other")])

example : (Main.main two ⟨c!"requirements.toml", c!"p", []⟩ twoFiles).1 = 1 ∧
    (Main.main two ⟨c!"requirements.toml", c!"p", []⟩ twoFiles).1 = (Main.main two ⟨c!"other.toml", c!"p", []⟩ twoFiles).1 := by
  refine ⟨by decide +kernel, C151_exit (config := config) f_injective rfl rfl ?_ ?_ (by decide +kernel) (by decide +kernel)⟩
  · exact ⟨⟨Utf8.encode c!"...", none⟩, _, by decide +kernel, rfl, rfl, (C78_config _ _).1 rfl, fun v hv => by cases hv; rfl⟩
  · exact ⟨⟨Utf8.encode c!"other", none⟩, _, by decide +kernel, rfl, rfl, (C78_config _ _).1 rfl, fun v hv => by cases hv; rfl⟩

/-- `LO` gets a name after `ZZ`. -/
def last (s : ArtefactId) : ArtefactId := if s = c!"LO" then c!"ZZZ" else if s = c!"ZZZ" then c!"LO" else s

/-- The graph in which `L1` is in two artefacts, of which the second comes first now. -/
def other : Graph :=
  ⟨.ofList [(c!"UP", Example.art c!"UP" true true [Example.u1, Example.u2]),
      (c!"ZZZ", Example.art c!"ZZZ" false true [Example.l1, Example.l2, Example.l3]),
      (c!"ZZ", Example.art c!"ZZ" false false [Example.l1'])],
    [⟨c!"UP", [c!"ZZZ"]⟩, ⟨c!"ZZ", [c!"UP"]⟩]⟩

/-- If an id is in two artefacts, names matter: the requirement of the artefact with the first name counts. -/
example : (trace Example.graph).toOption.map (fun tg => tg.tracedRelations.map (·.covered.map fun c => (c.upper, c.lower))) =
      some [[(c!"U1", c!"L1"), (c!"U1", c!"L2")], []] ∧
    (trace other).toOption.map (fun tg => tg.tracedRelations.map (·.covered.map fun c => (c.upper, c.lower))) =
      some [[(c!"U1", c!"L2")], []] := by
  decide +kernel

end CalledExample

end Reqtrace
