import Verif.Lemmas.Trace

/-!
# C01–C13: the tracer
-/

set_option linter.unusedSimpArgs false

namespace Reqtrace

open Spec

/-! ## Auxiliary facts -/

theorem mem_upperReqs {g : Graph} (hk : Keyed g) (rel : Relation) (u : Requirement) :
    u ∈ upperReqs g rel ↔ Defines g rel.upper u := by
  unfold upperReqs Defines
  cases h : g.artefacts.get rel.upper with
  | none => simp
  | some art =>
    simp only [BMap.mem_values_iff, Option.some.injEq, exists_eq_left']
    constructor
    · rintro ⟨k, hr⟩
      rw [hk.requirement _ _ h _ _ hr]; exact hr
    · intro hr; exact ⟨_, hr⟩

theorem mem_relEvents {g : Graph} (hk : Keyed g) (rel : Relation) (e : Event) :
    e ∈ relEvents g rel ↔ Establishes g rel e.lowerArt e.upper e.lower e.ref e.dir := by
  unfold relEvents reqEvents downEvents upEvents
  simp only [List.mem_flatMap, List.mem_append, List.mem_map, List.mem_filter, mem_upperReqs hk,
    mem_owned hk, beq_iff_eq]
  constructor
  · rintro ⟨u, hu, ⟨ref, hr, a, ha, l, ⟨hl, hid⟩, rfl⟩ | ⟨a, ha, l, hl, ref, ⟨hr, hid⟩, rfl⟩⟩
    · exact .down hu ha hl hr hid.symm
    · exact .up hu ha hl hr hid
  · obtain ⟨a, u, l, ref, d⟩ := e
    intro h
    cases h with
    | down h1 h2 h3 h4 h5 => exact ⟨u, h1, .inl ⟨ref, h4, a, h2, l, ⟨h3, h5.symm⟩, rfl⟩⟩
    | up h1 h2 h3 h4 h5 => exact ⟨u, h1, .inr ⟨a, h2, l, h3, ref, ⟨h4, h5⟩, rfl⟩⟩

theorem mem_allEvents {g : Graph} (hk : Keyed g) (e : Event) :
    e ∈ allEvents g ↔
      ∃ rel ∈ g.relations, Establishes g rel e.lowerArt e.upper e.lower e.ref e.dir := by
  unfold allEvents
  simp only [List.mem_flatMap, mem_relEvents hk]

theorem reqEvents_upper {g : Graph} {rel : Relation} {u : Requirement} {e : Event}
    (h : e ∈ reqEvents g rel u) : e.upper = u := by
  unfold reqEvents downEvents upEvents at h
  simp only [List.mem_append, List.mem_flatMap, List.mem_map] at h
  rcases h with ⟨ref, _, a, _, l, _, rfl⟩ | ⟨a, _, l, _, ref, _, rfl⟩ <;> rfl

/-- The coverages of the result are those of all events. -/
theorem forall_coverage (g : Graph) (p : Coverage → Prop) :
    (∀ tr ∈ (traced g).tracedRelations, ∀ c ∈ tr.covered, p c) ↔
      ∀ e ∈ allEvents g, p e.coverage := by
  unfold traced allEvents
  simp only [List.mem_map, List.mem_flatMap]
  constructor
  · rintro h e ⟨rel, hrel, he⟩
    exact h _ ⟨rel, hrel, rfl⟩ _ (List.mem_map_of_mem he)
  · rintro h tr ⟨rel, hrel, rfl⟩ c hc
    obtain ⟨e, he, rfl⟩ := List.mem_map.1 hc
    exact h e ⟨rel, hrel, he⟩

theorem find_first {α : Type} {p : α → Bool} {l : List α} {a : α} :
    l.find? p = some a ↔ ∃ pre post, l = pre ++ a :: post ∧ p a = true ∧ ∀ x ∈ pre, p x = false := by
  rw [List.find?_eq_some_iff_append]
  constructor
  · rintro ⟨h1, pre, post, h2, h3⟩
    exact ⟨pre, post, h2, h1, by simpa using h3⟩
  · rintro ⟨pre, post, h2, h1, h3⟩
    exact ⟨h1, pre, post, h2, by simpa using h3⟩

/-- The kinds of errors of each part of the error list. -/
theorem mem_traced_errors (g : Graph) (e : Error) : e ∈ (traced g).errors ↔
    e ∈ duplicateErrors g ∨ (∃ rel ∈ g.relations, e ∈ relationErrors g rel) ∨
    e ∈ danglingCovers g ∨ e ∈ danglingDepends g := by
  unfold traced
  simp only [List.mem_append, List.mem_flatMap, or_assoc]

theorem mem_duplicateErrors {g : Graph} (hk : Keyed g) (e : Error) : e ∈ duplicateErrors g ↔
    ∃ first again, e = .duplicateRequirement first again ∧ ∃ a b, Owns g a first ∧
      Defines g b again ∧ again.id = first.id ∧ compare a b = .lt := by
  rw [duplicateErrors_eq, List.mem_flatMap]
  constructor
  · rintro ⟨⟨b, art⟩, hb, he⟩
    obtain ⟨pre, post, hs⟩ := entries_split hb
    rw [dupErrorsOf_split hs, List.mem_filterMap] at he
    obtain ⟨again, h1, h2⟩ := he
    have hget : g.artefacts.get b = some art := (BMap.get_eq_some_iff _ _ _).2 hb
    cases hseen : seen pre again.id with
    | none => rw [hseen] at h2; simp at h2
    | some first =>
      rw [hseen] at h2
      obtain ⟨k, hk1⟩ := (BMap.mem_values_iff _ _).1 h1
      have hid := hk.requirement b art hget k again hk1
      unfold seen at hseen
      obtain ⟨pre1, x, pre2, hp, hx, hfirst⟩ := List.findSome?_eq_some_iff.1 hseen
      have hs1 : g.artefacts.entries = pre1 ++ x :: (pre2 ++ (b, art) :: post) := by
        rw [hs, hp]; simp
      have hgx : g.artefacts.get x.1 = some x.2 :=
        (BMap.get_eq_some_iff _ _ _).2 (by rw [hs1]; simp)
      have hid1 := hk.requirement _ _ hgx _ _ hx
      refine ⟨first, again, by simpa using h2.symm, x.1, b, ?_, ⟨art, hget, hid ▸ hk1⟩, hid1.symm,
        (split_lt hs).1 x (by rw [hp]; simp)⟩
      rw [← mem_owned hk, owned_split hs1, List.mem_filter]
      refine ⟨(BMap.mem_values_iff _ _).2 ⟨_, hx⟩, ?_⟩
      rw [Option.isNone_iff_eq_none]
      unfold seen
      rw [List.findSome?_eq_none_iff, hid1]
      exact hfirst
  · rintro ⟨first, again, rfl, a, b, hown, ⟨art, hb, hr⟩, hid, hlt⟩
    refine ⟨(b, art), (BMap.get_eq_some_iff _ _ _).1 hb, ?_⟩
    obtain ⟨pre, post, hs⟩ := entries_split ((BMap.get_eq_some_iff _ _ _).1 hb)
    rw [dupErrorsOf_split hs, List.mem_filterMap]
    refine ⟨again, (BMap.mem_values_iff _ _).2 ⟨_, hr⟩, ?_⟩
    have hown' := (mem_owned hk a first).2 hown
    have ho := owner_of_owned hk hown'
    rw [owner_eq_seen, hs] at ho
    have : seen pre again.id = some first := by
      unfold seen at ho ⊢
      rw [List.findSome?_append, ← hid] at ho
      cases hq : pre.findSome? (fun e => e.2.requirements.get again.id) with
      | some r => rw [hq] at ho; simpa using ho
      | none =>
        rw [hq] at ho
        obtain ⟨⟨art', ha, hr'⟩, _⟩ := hown
        have hmem := (BMap.get_eq_some_iff _ _ _).1 ha
        rw [hs, List.mem_append] at hmem
        rcases hmem with hmem | hmem
        · have := List.findSome?_eq_none_iff.1 hq _ hmem
          rw [hid] at this
          simp only at this
          rw [hr'] at this; cases this
        · exact absurd hlt ((split_lt hs).2 _ hmem)
    rw [this]; rfl

theorem mem_titleErrors {g : Graph} {rel : Relation} {ev : Event} {e : Error} :
    e ∈ titleErrors g rel ev ↔
      (ev.dir = .downwards ∧ (
        (∃ t, ev.ref.title = some t ∧ ev.lower.title ≠ some t ∧
          e = .dependWithWrongTitle ev.upper ev.lower t ev.ref.location) ∨
        (ev.ref.title = none ∧ needsTitle g ev.lowerArt = true ∧
          e = .referencedWithoutTitle ev.lower ev.ref.location))) ∨
      (ev.dir = .upwards ∧ (
        (∃ t, ev.ref.title = some t ∧ ev.upper.title ≠ some t ∧
          e = .coveredWithWrongTitle ev.upper ev.lower t ev.ref.location) ∨
        (ev.ref.title = none ∧ needsTitle g rel.upper = true ∧
          e = .referencedWithoutTitle ev.upper ev.ref.location))) := by
  unfold titleErrors
  cases ev.dir <;> cases ev.ref.title <;> simp only [] <;> split <;> simp_all

theorem needsTitle_iff (g : Graph) (a : ArtefactId) : needsTitle g a = true ↔
    ∃ art, g.artefacts.get a = some art ∧ art.referenceWithTitle = true := by
  unfold needsTitle
  cases g.artefacts.get a <;> simp

theorem mem_relationErrors {g : Graph} {rel : Relation} {e : Error} :
    e ∈ relationErrors g rel ↔ (∃ ev ∈ relEvents g rel, e ∈ titleErrors g rel ev) ∨
      (relEvents g rel = [] ∧ e = .unusedRelation rel) := by
  unfold relationErrors
  rw [List.mem_append, List.mem_flatMap]
  cases relEvents g rel <;> simp

theorem mem_danglingCovers {g : Graph} (hk : Keyed g) (e : Error) : e ∈ danglingCovers g ↔
    ∃ req up ref, e = .coversUnknownRequirement req up ref.location ∧ (∃ a, Owns g a req) ∧
      req.covers.find? (fun r => r.id == up) = some ref ∧
      ∀ ev ∈ allEvents g, ¬ (ev.dir = .upwards ∧ ev.upper.id = up ∧ ev.lower.id = req.id) := by
  unfold danglingCovers
  rw [List.mem_filterMap]
  constructor
  · rintro ⟨⟨k1, k2⟩, h1, h2⟩
    rw [List.mem_filter, mem_coverLinks, Bool.not_eq_true', ← Bool.not_eq_true, linked_iff] at h1
    obtain ⟨⟨en, _, r, hr, ref, href, hkk⟩, hnl⟩ := h1
    cases hkk
    simp only [owner_of_owned hk hr, Option.bind_some] at h2
    cases hf : r.covers.find? (fun r => r.id == ref.id) with
    | none => rw [hf] at h2; simp at h2
    | some ref' =>
      rw [hf] at h2
      refine ⟨r, ref.id, ref', by simpa using h2.symm, ⟨_, (mem_owned hk _ _).1 hr⟩, hf, ?_⟩
      rintro ev hev ⟨e1, e2, e3⟩
      exact hnl ⟨ev, hev, e1, by rw [e2, e3]⟩
  · rintro ⟨req, up, ref, rfl, ⟨a, hown⟩, hf, hnl⟩
    have hown' := (mem_owned hk _ _).2 hown
    refine ⟨(up, req.id), ?_, ?_⟩
    · rw [List.mem_filter, mem_coverLinks, Bool.not_eq_true', ← Bool.not_eq_true, linked_iff]
      constructor
      · obtain ⟨⟨art, ha, _⟩, _⟩ := hown
        have hid : ref.id = up := by simpa using List.find?_some hf
        exact ⟨(a, art), (BMap.get_eq_some_iff _ _ _).1 ha, req, hown', ref,
          List.mem_of_find?_eq_some hf, by rw [hid]⟩
      · rintro ⟨ev, hev, e1, e2⟩
        exact hnl ev hev ⟨e1, congrArg Prod.fst e2, congrArg Prod.snd e2⟩
    · simp [owner_of_owned hk hown', hf]

theorem mem_danglingDepends {g : Graph} (hk : Keyed g) (e : Error) : e ∈ danglingDepends g ↔
    ∃ req low ref, e = .dependOnUnknownRequirement req low ref.location ∧ (∃ a, Owns g a req) ∧
      req.depends.find? (fun r => r.id == low) = some ref ∧
      ∀ ev ∈ allEvents g, ¬ (ev.dir = .downwards ∧ ev.upper.id = req.id ∧ ev.lower.id = low) := by
  unfold danglingDepends
  rw [List.mem_filterMap]
  constructor
  · rintro ⟨⟨k1, k2⟩, h1, h2⟩
    rw [List.mem_filter, mem_dependLinks, Bool.not_eq_true', ← Bool.not_eq_true, linked_iff] at h1
    obtain ⟨⟨en, _, r, hr, ref, href, hkk⟩, hnl⟩ := h1
    cases hkk
    simp only [owner_of_owned hk hr, Option.bind_some] at h2
    cases hf : r.depends.find? (fun r => r.id == ref.id) with
    | none => rw [hf] at h2; simp at h2
    | some ref' =>
      rw [hf] at h2
      refine ⟨r, ref.id, ref', by simpa using h2.symm, ⟨_, (mem_owned hk _ _).1 hr⟩, hf, ?_⟩
      rintro ev hev ⟨e1, e2, e3⟩
      exact hnl ⟨ev, hev, e1, by rw [e2, e3]⟩
  · rintro ⟨req, low, ref, rfl, ⟨a, hown⟩, hf, hnl⟩
    have hown' := (mem_owned hk _ _).2 hown
    refine ⟨(req.id, low), ?_, ?_⟩
    · rw [List.mem_filter, mem_dependLinks, Bool.not_eq_true', ← Bool.not_eq_true, linked_iff]
      constructor
      · obtain ⟨⟨art, ha, _⟩, _⟩ := hown
        have hid : ref.id = low := by simpa using List.find?_some hf
        exact ⟨(a, art), (BMap.get_eq_some_iff _ _ _).1 ha, req, hown', ref,
          List.mem_of_find?_eq_some hf, by rw [hid]⟩
      · rintro ⟨ev, hev, e1, e2⟩
        exact hnl ev hev ⟨e1, congrArg Prod.fst e2, congrArg Prod.snd e2⟩
    · simp [owner_of_owned hk hown', hf]

/-- Decomposition of membership in the error list by kind of error. -/
theorem mem_errors {g : Graph} (hk : Keyed g) (e : Error) : e ∈ (traced g).errors ↔
    (∃ first again, e = .duplicateRequirement first again ∧ ∃ a b, Owns g a first ∧
      Defines g b again ∧ again.id = first.id ∧ compare a b = .lt) ∨
    (∃ rel ∈ g.relations, (∃ ev ∈ relEvents g rel, e ∈ titleErrors g rel ev) ∨
      (relEvents g rel = [] ∧ e = .unusedRelation rel)) ∨
    (∃ req up ref, e = .coversUnknownRequirement req up ref.location ∧ (∃ a, Owns g a req) ∧
      req.covers.find? (fun r => r.id == up) = some ref ∧
      ∀ ev ∈ allEvents g, ¬ (ev.dir = .upwards ∧ ev.upper.id = up ∧ ev.lower.id = req.id)) ∨
    (∃ req low ref, e = .dependOnUnknownRequirement req low ref.location ∧ (∃ a, Owns g a req) ∧
      req.depends.find? (fun r => r.id == low) = some ref ∧
      ∀ ev ∈ allEvents g, ¬ (ev.dir = .downwards ∧ ev.upper.id = req.id ∧ ev.lower.id = low)) := by
  rw [mem_traced_errors, mem_duplicateErrors hk, mem_danglingCovers hk, mem_danglingDepends hk]
  simp only [mem_relationErrors]

/-! ## A graph that exercises every clause -/

namespace Example

def loc (n : Nat) : Location := .newWithLineNo c!"f" n
def ref (id : Str) (title : Option Str) (n : Nat) : Reference := ⟨id, title, loc n⟩
def req (id : Str) (title : Option Str) (covers depends : List Reference) : Requirement :=
  ⟨id, title, loc 0, covers, depends, [], .empty⟩
def art (id : Str) (ignore withTitle : Bool) (reqs : List Requirement) : Artefact :=
  ⟨id, [], ignore, withTitle, .ofList (reqs.map (fun r => (r.id, r))), []⟩

def u1 := req c!"U1" (some c!"one") [] [ref c!"L1" none 1, ref c!"X" none 2]
def u2 := req c!"U2" none [] []
def l1 := req c!"L1" (some c!"low") [ref c!"Y" none 3] []
def l2 := req c!"L2" none [ref c!"U1" (some c!"wrong") 4] []
def l3 := req c!"L3" none [] []
def l1' := req c!"L1" none [] []

/-- An upper artefact with two requirements, a lower one with three, a third one that repeats an
id; one relation in use and one that is not. -/
def graph : Graph :=
  ⟨.ofList [(c!"UP", art c!"UP" true true [u1, u2]), (c!"LO", art c!"LO" false true [l1, l2, l3]),
      (c!"ZZ", art c!"ZZ" false false [l1'])],
    [⟨c!"UP", [c!"LO"]⟩, ⟨c!"ZZ", [c!"UP"]⟩]⟩

/-- Decides `Keyed`. -/
def keyedCheck (g : Graph) : Bool :=
  g.artefacts.entries.all (fun e => e.2.id == e.1 &&
    e.2.requirements.entries.all (fun r => r.2.id == r.1))

theorem keyed_of_check {g : Graph} (h : keyedCheck g = true) : Keyed g := by
  unfold keyedCheck at h
  simp only [List.all_eq_true, Bool.and_eq_true, beq_iff_eq] at h
  constructor
  · intro a art ha
    exact (h _ ((BMap.get_eq_some_iff _ _ _).1 ha)).1
  · intro a art ha k r hr
    exact (h _ ((BMap.get_eq_some_iff _ _ _).1 ha)).2 _ ((BMap.get_eq_some_iff _ _ _).1 hr)

theorem graph_keyed : Keyed graph := keyed_of_check (by decide +kernel)

/-- The hypotheses of the theorems below hold for `graph`, and all kinds of results occur. -/
theorem graph_traced : trace graph = .ok
    { artefacts := graph.artefacts
      tracedRelations := [
        ⟨⟨c!"UP", [c!"LO"]⟩, [⟨c!"U1", c!"L1", loc 1, .downwards⟩, ⟨c!"U1", c!"L2", loc 4, .upwards⟩],
          [c!"U2"]⟩,
        ⟨⟨c!"ZZ", [c!"UP"]⟩, [], [c!"L1"]⟩]
      derived := .ofList [(c!"LO", [c!"L3"]), (c!"UP", []), (c!"ZZ", [])]
      errors := [
        .duplicateRequirement l1 l1',
        .referencedWithoutTitle l1 (loc 1),
        .coveredWithWrongTitle u1 l2 c!"wrong" (loc 4),
        .unusedRelation ⟨c!"ZZ", [c!"UP"]⟩,
        .coversUnknownRequirement l1 c!"Y" (loc 3),
        .dependOnUnknownRequirement u1 c!"X" (loc 2)] } := by
  decide +kernel

end Example

/-! ## The properties -/

section
variable {g : Graph} {tg : TracedGraph} (hk : Keyed g) (h : trace g = .ok tg)
include hk h

/-- **C01** Coverage is reported exactly where a reference establishes it. -/
theorem C01_coverage_exact {i : Nat} {tr : TracedRelation}
    (hi : tg.tracedRelations[i]? = some tr) (c : Coverage) :
    c ∈ tr.covered ↔ ∃ rel a upper lower ref, g.relations[i]? = some rel ∧
      Establishes g rel a upper lower ref c.direction ∧
      c = ⟨upper.id, lower.id, ref.location, c.direction⟩ := by
  obtain ⟨_, rfl⟩ := (trace_ok_iff hk tg).1 h
  simp only [traced, List.getElem?_map, Option.map_eq_some_iff] at hi
  obtain ⟨rel, hrel, rfl⟩ := hi
  simp only [tracedRelation, List.mem_map, mem_relEvents hk, hrel, Option.some.injEq]
  constructor
  · rintro ⟨e, he, rfl⟩
    exact ⟨rel, e.lowerArt, e.upper, e.lower, e.ref, rfl, he, rfl⟩
  · rintro ⟨_, a, u, l, ref, rfl, he, hc⟩
    exact ⟨⟨a, u, l, ref, c.direction⟩, he, hc.symm⟩

/-- **C01**, with order and multiplicity: the list is the comprehension over the upper
requirements, per requirement first its `depends` references in order, then the `covers` references
of the lower artefacts in order. -/
theorem C01_coverage_list {i : Nat} {tr : TracedRelation}
    (hi : tg.tracedRelations[i]? = some tr) :
    g.relations[i]? = some tr.relation ∧
    tr.covered = (upperReqs g tr.relation).flatMap (fun u =>
      (u.depends.flatMap fun ref => tr.relation.lower.flatMap fun a =>
        ((owned g a).filter (fun l => l.id == ref.id)).map fun l =>
          ⟨u.id, l.id, ref.location, .downwards⟩) ++
      (tr.relation.lower.flatMap fun a => (owned g a).flatMap fun l =>
        (l.covers.filter (fun ref => ref.id == u.id)).map fun ref =>
          ⟨u.id, l.id, ref.location, .upwards⟩)) := by
  obtain ⟨_, rfl⟩ := (trace_ok_iff hk tg).1 h
  simp only [traced, List.getElem?_map, Option.map_eq_some_iff] at hi
  obtain ⟨rel, hrel, rfl⟩ := hi
  refine ⟨hrel, ?_⟩
  simp only [tracedRelation, relEvents, reqEvents, downEvents, upEvents, List.map_flatMap,
    List.map_append, List.map_map, Function.comp_def, Event.coverage]

/-- **C02** Uncovered is exactly the complement of covered, in id order, each id once. -/
theorem C02_uncovered_complement {tr : TracedRelation} (ht : tr ∈ tg.tracedRelations) :
    ∃ art, g.artefacts.get tr.relation.upper = some art ∧
      tr.uncovered.Pairwise (fun a b => compare a b = .lt) ∧
      ∀ id, id ∈ tr.uncovered ↔ (∃ r, art.requirements.get id = some r) ∧
        ∀ c ∈ tr.covered, c.upper ≠ id := by
  obtain ⟨htr, rfl⟩ := (trace_ok_iff hk tg).1 h
  simp only [traced, List.mem_map] at ht
  obtain ⟨rel, hrel, rfl⟩ := ht
  obtain ⟨art, hart, _⟩ := htr rel hrel
  have hs := ids_sorted (fun k req => hk.requirement _ art hart k req)
  refine ⟨art, hart, ?_, ?_⟩
  · simp only [tracedRelation, uncovered, upperReqs, hart]
    rw [List.pairwise_map] at hs ⊢
    exact hs.filter _
  · intro id
    simp only [tracedRelation, uncovered, List.mem_map, List.mem_filter, List.isEmpty_iff]
    constructor
    · rintro ⟨u, ⟨hu, hev⟩, rfl⟩
      obtain ⟨art', hart', hr⟩ := (mem_upperReqs hk rel u).1 hu
      rw [hart] at hart'; cases hart'
      refine ⟨⟨u, hr⟩, ?_⟩
      rintro c ⟨e, he, rfl⟩ hid
      unfold relEvents at he
      obtain ⟨u', hu', he⟩ := List.mem_flatMap.1 he
      have h1 : e.upper = u' := reqEvents_upper he
      obtain ⟨art', hart', hr'⟩ := (mem_upperReqs hk rel u').1 hu'
      rw [hart] at hart'; cases hart'
      have hid' : u'.id = u.id := by rw [← h1]; exact hid
      rw [hid', hr] at hr'
      cases hr'
      rw [hev] at he; cases he
    · rintro ⟨⟨r, hr⟩, hc⟩
      have hid := hk.requirement _ _ hart _ _ hr
      refine ⟨r, ⟨(mem_upperReqs hk rel r).2 ⟨art, hart, by rw [hid]; exact hr⟩, ?_⟩, hid⟩
      rw [List.eq_nil_iff_forall_not_mem]
      intro e he
      refine hc e.coverage ⟨e, List.mem_flatMap.2 ⟨r, ?_, he⟩, rfl⟩ ?_
      · exact (mem_upperReqs hk rel r).2 ⟨art, hart, by rw [hid]; exact hr⟩
      · show e.upper.id = id
        rw [reqEvents_upper he, hid]

/-- **C03** Derived is exactly the owned requirements that cover nothing, in id order; empty for
artefacts that ignore derived requirements. -/
theorem C03_derived_exact {a : ArtefactId} {art : Artefact} (ha : g.artefacts.get a = some art) :
    ∃ d, tg.derived.get a = some d ∧ d.Pairwise (fun a b => compare a b = .lt) ∧
      ∀ id, id ∈ d ↔ art.ignoreDerivedRequirements = false ∧ (∃ r, Owns g a r ∧ r.id = id) ∧
        ∀ tr ∈ tg.tracedRelations, ∀ c ∈ tr.covered, c.lower ≠ id := by
  obtain ⟨_, rfl⟩ := (trace_ok_iff hk tg).1 h
  refine ⟨derived g a art, ?_, ?_, ?_⟩
  · show (derivedMap g).get a = _
    unfold derivedMap
    rw [get_ofList_map, ha]; rfl
  · unfold derived
    split
    · exact .nil
    · exact (owned_sorted hk a).filter _
  · intro id
    rw [forall_coverage]
    unfold derived
    cases art.ignoreDerivedRequirements with
    | true => simp
    | false =>
      simp only [Bool.false_eq_true, if_false, List.mem_filter, List.mem_map, mem_owned hk,
        List.all_eq_true, bne_iff_ne, ne_eq, true_and]
      rfl

/-- **C04** A dangling `covers` reference is reported, and only a dangling one; the location is
that of the first such reference. -/
theorem C04_covers_unknown (req : Requirement) (up : RequirementId) (l : Location) :
    .coversUnknownRequirement req up l ∈ tg.errors ↔
      (∃ a, Owns g a req) ∧
      (∃ pre ref post, req.covers = pre ++ ref :: post ∧ ref.id = up ∧ ref.location = l ∧
        ∀ r ∈ pre, r.id ≠ up) ∧
      ∀ tr ∈ tg.tracedRelations, ∀ c ∈ tr.covered,
        ¬ (c.direction = .upwards ∧ c.upper = up ∧ c.lower = req.id) := by
  obtain ⟨_, rfl⟩ := (trace_ok_iff hk tg).1 h
  rw [mem_errors hk, forall_coverage]
  simp only [mem_titleErrors, reduceCtorEq, and_false, exists_const, or_false, false_and, or_self,
    false_or, Error.coversUnknownRequirement.injEq, exists_false]
  constructor
  · rintro ⟨req', up', ref, ⟨rfl, rfl, rfl⟩, hown, hf, hev⟩
    obtain ⟨pre, post, e1, e2, e3⟩ := find_first.1 hf
    exact ⟨hown, ⟨pre, ref, post, e1, by simpa using e2, rfl, by simpa using e3⟩, hev⟩
  · rintro ⟨hown, ⟨pre, ref, post, e1, e2, rfl, e3⟩, hev⟩
    exact ⟨req, up, ref, ⟨rfl, rfl, rfl⟩, hown,
      find_first.2 ⟨pre, post, e1, by simpa using e2, by simpa using e3⟩, hev⟩

/-- **C05** A dangling `depends` reference is reported, and only a dangling one. -/
theorem C05_depends_unknown (req : Requirement) (low : RequirementId) (l : Location) :
    .dependOnUnknownRequirement req low l ∈ tg.errors ↔
      (∃ a, Owns g a req) ∧
      (∃ pre ref post, req.depends = pre ++ ref :: post ∧ ref.id = low ∧ ref.location = l ∧
        ∀ r ∈ pre, r.id ≠ low) ∧
      ∀ tr ∈ tg.tracedRelations, ∀ c ∈ tr.covered,
        ¬ (c.direction = .downwards ∧ c.upper = req.id ∧ c.lower = low) := by
  obtain ⟨_, rfl⟩ := (trace_ok_iff hk tg).1 h
  rw [mem_errors hk, forall_coverage]
  simp only [mem_titleErrors, reduceCtorEq, and_false, exists_const, or_false, false_and, or_self,
    false_or, Error.dependOnUnknownRequirement.injEq, exists_false]
  constructor
  · rintro ⟨req', up', ref, ⟨rfl, rfl, rfl⟩, hown, hf, hev⟩
    obtain ⟨pre, post, e1, e2, e3⟩ := find_first.1 hf
    exact ⟨hown, ⟨pre, ref, post, e1, by simpa using e2, rfl, by simpa using e3⟩, hev⟩
  · rintro ⟨hown, ⟨pre, ref, post, e1, e2, rfl, e3⟩, hev⟩
    exact ⟨req, low, ref, ⟨rfl, rfl, rfl⟩, hown,
      find_first.2 ⟨pre, post, e1, by simpa using e2, by simpa using e3⟩, hev⟩

/-- **C06**, upwards: a wrong title in an established `covers` reference is reported, a right one
never. -/
theorem C06_covers_title (u l : Requirement) (t : Str) (loc : Location) :
    .coveredWithWrongTitle u l t loc ∈ tg.errors ↔
      ∃ rel ∈ g.relations, ∃ a ref, Establishes g rel a u l ref .upwards ∧
        ref.title = some t ∧ u.title ≠ some t ∧ ref.location = loc := by
  obtain ⟨_, rfl⟩ := (trace_ok_iff hk tg).1 h
  rw [mem_errors hk]
  simp only [mem_titleErrors, mem_relEvents hk, reduceCtorEq, and_false, exists_const, or_false,
    false_and, or_self, false_or, Error.coveredWithWrongTitle.injEq, exists_false]
  constructor
  · rintro ⟨rel, hrel, ev, hev, hd, t', h1, h2, rfl, rfl, rfl, rfl⟩
    exact ⟨rel, hrel, ev.lowerArt, ev.ref, hd ▸ hev, h1, h2, rfl⟩
  · rintro ⟨rel, hrel, a, ref, hev, h1, h2, rfl⟩
    exact ⟨rel, hrel, ⟨a, u, l, ref, .upwards⟩, hev, rfl, t, h1, h2, rfl, rfl, rfl, rfl⟩

/-- **C06**, downwards. -/
theorem C06_depends_title (u l : Requirement) (t : Str) (loc : Location) :
    .dependWithWrongTitle u l t loc ∈ tg.errors ↔
      ∃ rel ∈ g.relations, ∃ a ref, Establishes g rel a u l ref .downwards ∧
        ref.title = some t ∧ l.title ≠ some t ∧ ref.location = loc := by
  obtain ⟨_, rfl⟩ := (trace_ok_iff hk tg).1 h
  rw [mem_errors hk]
  simp only [mem_titleErrors, mem_relEvents hk, reduceCtorEq, and_false, exists_const, or_false,
    false_and, or_self, false_or, Error.dependWithWrongTitle.injEq, exists_false]
  constructor
  · rintro ⟨rel, hrel, ev, hev, hd, t', h1, h2, rfl, rfl, rfl, rfl⟩
    exact ⟨rel, hrel, ev.lowerArt, ev.ref, hd ▸ hev, h1, h2, rfl⟩
  · rintro ⟨rel, hrel, a, ref, hev, h1, h2, rfl⟩
    exact ⟨rel, hrel, ⟨a, u, l, ref, .downwards⟩, hev, rfl, t, h1, h2, rfl, rfl, rfl, rfl⟩

/-- **C07** Artefacts that require titles get every established reference without title reported:
`depends` references by the policy of the lower artefact, `covers` references by that of the upper
one. -/
theorem C07_untitled (r : Requirement) (loc : Location) :
    .referencedWithoutTitle r loc ∈ tg.errors ↔
      ∃ rel ∈ g.relations, ∃ a u l ref d art, Establishes g rel a u l ref d ∧
        ref.title = none ∧ ref.location = loc ∧ art.referenceWithTitle = true ∧
        ((d = .downwards ∧ g.artefacts.get a = some art ∧ r = l) ∨
         (d = .upwards ∧ g.artefacts.get rel.upper = some art ∧ r = u)) := by
  obtain ⟨_, rfl⟩ := (trace_ok_iff hk tg).1 h
  rw [mem_errors hk]
  simp only [mem_titleErrors, mem_relEvents hk, reduceCtorEq, and_false, exists_const, or_false,
    false_and, or_self, false_or, Error.referencedWithoutTitle.injEq, exists_false, needsTitle_iff]
  constructor
  · rintro ⟨rel, hrel, ev, hev, ⟨hd, h1, ⟨art, ha, hw⟩, rfl, rfl⟩ | ⟨hd, h1, ⟨art, ha, hw⟩, rfl, rfl⟩⟩
    · exact ⟨rel, hrel, _, _, _, _, _, art, hev, h1, rfl, hw, .inl ⟨hd, ha, rfl⟩⟩
    · exact ⟨rel, hrel, _, _, _, _, _, art, hev, h1, rfl, hw, .inr ⟨hd, ha, rfl⟩⟩
  · rintro ⟨rel, hrel, a, u, l, ref, d, art, hev, h1, rfl, hw, ⟨rfl, ha, rfl⟩ | ⟨rfl, ha, rfl⟩⟩
    · exact ⟨rel, hrel, ⟨a, u, r, ref, .downwards⟩, hev, .inl ⟨rfl, h1, ⟨art, ha, hw⟩, rfl, rfl⟩⟩
    · exact ⟨rel, hrel, ⟨a, r, l, ref, .upwards⟩, hev, .inr ⟨rfl, h1, ⟨art, ha, hw⟩, rfl, rfl⟩⟩

/-- **C08** An id defined in two artefacts is reported, naming the owned definition first. -/
theorem C08_duplicates (first again : Requirement) :
    .duplicateRequirement first again ∈ tg.errors ↔
      ∃ a b, Owns g a first ∧ Defines g b again ∧ again.id = first.id ∧ compare a b = .lt := by
  obtain ⟨_, rfl⟩ := (trace_ok_iff hk tg).1 h
  rw [mem_errors hk]
  simp only [mem_titleErrors, reduceCtorEq, and_false, exists_const, or_false, false_and, or_self,
    false_or, Error.duplicateRequirement.injEq, exists_false]
  constructor
  · rintro ⟨f, a, ⟨rfl, rfl⟩, h⟩; exact h
  · intro h; exact ⟨first, again, ⟨rfl, rfl⟩, h⟩

/-- **C08**, exactly once: the second components of the duplicate errors are, in order, all the
requirements that are not owned by their artefact. -/
theorem C08_once :
    tg.errors.filterMap (fun e => match e with
      | .duplicateRequirement _ again => some again
      | _ => none) =
    g.artefacts.entries.flatMap (fun e => e.2.requirements.values.filter (fun r =>
      g.artefacts.entries.any (fun e' =>
        compare e'.1 e.1 == .lt && (e'.2.requirements.get r.id).isSome))) := by
  obtain ⟨_, rfl⟩ := (trace_ok_iff hk tg).1 h
  unfold traced
  simp only [List.filterMap_append, List.filterMap_flatMap]
  have h1 : danglingCovers g = (danglingCovers g).filter (fun e => match e with
      | .duplicateRequirement _ _ => false
      | _ => true) := by
    rw [eq_comm, List.filter_eq_self]
    intro e he
    obtain ⟨_, _, _, rfl, _⟩ := (mem_danglingCovers hk e).1 he
    rfl
  have h2 : ∀ l : List Error, (∀ e ∈ l, ∀ a b, e ≠ .duplicateRequirement a b) →
      l.filterMap (fun e => match e with
        | .duplicateRequirement _ again => some again
        | _ => none) = [] := by
    intro l hl
    rw [List.filterMap_eq_nil_iff]
    intro e he
    split
    · exact absurd rfl (hl _ he _ _)
    · rfl
  rw [h2 (danglingCovers g), h2 (danglingDepends g)]
  rotate_left
  · intro e he; obtain ⟨_, _, _, rfl, _⟩ := (mem_danglingDepends hk e).1 he; simp
  · intro e he; obtain ⟨_, _, _, rfl, _⟩ := (mem_danglingCovers hk e).1 he; simp
  have h3 : (g.relations.flatMap fun rel => (relationErrors g rel).filterMap (fun e => match e with
        | .duplicateRequirement _ again => some again
        | _ => none)) = [] := by
    rw [List.flatMap_eq_nil_iff]
    intro rel _
    apply h2
    intro e he a b hab
    subst hab
    rw [mem_relationErrors] at he
    simp [mem_titleErrors] at he
  rw [h3]
  simp only [List.append_nil]
  unfold duplicateErrors
  rw [List.filterMap_flatMap]
  congr 1
  funext e
  rw [List.filterMap_filterMap, ← List.filterMap_eq_filter]
  congr 1
  funext r
  cases hf : g.artefacts.entries.findSome? (fun e' =>
      if compare e'.1 e.1 = .lt then e'.2.requirements.get r.id else none) with
  | none =>
    rw [List.findSome?_eq_none_iff] at hf
    have : (g.artefacts.entries.any (fun e' =>
        compare e'.1 e.1 == .lt && (e'.2.requirements.get r.id).isSome)) = false := by
      rw [List.any_eq_false]
      intro x hx
      have := hf x hx
      by_cases hlt : compare x.1 e.1 = .lt <;> simp_all
    simp [this, Option.guard]
  | some old =>
    obtain ⟨x, hx, hx2⟩ := List.exists_of_findSome?_eq_some hf
    have : (g.artefacts.entries.any (fun e' =>
        compare e'.1 e.1 == .lt && (e'.2.requirements.get r.id).isSome)) = true := by
      rw [List.any_eq_true]
      refine ⟨x, hx, ?_⟩
      by_cases hlt : compare x.1 e.1 = .lt <;> simp_all
    simp [this, Option.guard]

/-- **C08** No duplicate is reported iff requirement ids are unique across the graph. -/
theorem C08_none_iff_unique :
    (∀ first again, .duplicateRequirement first again ∉ tg.errors) ↔
      ∀ a b r s, Defines g a r → Defines g b s → r.id = s.id → a = b := by
  constructor
  · intro hno a b r s hr hs hid
    have aux : ∀ a b r s, Defines g a r → Defines g b s → r.id = s.id → compare a b ≠ .lt := by
      intro a b r s hr hs hid hlt
      obtain ⟨art, ha, hr'⟩ := hr
      cases ho : owner g s.id with
      | none =>
        unfold owner at ho
        rw [List.findSome?_eq_none_iff] at ho
        have := ho art ((BMap.mem_values_iff _ _).2 ⟨_, ha⟩)
        rw [← hid, hr'] at this
        cases this
      | some f =>
        obtain ⟨hfid, c, hc⟩ := exists_owner hk ho
        have hown := (mem_owned hk c f).1 hc
        have hcb : compare c b = .lt := by
          cases hca : compare c a with
          | lt => exact Std.TransCmp.lt_trans hca hlt
          | eq => rw [Std.LawfulEqOrd.eq_of_compare hca]; exact hlt
          | gt =>
            exact absurd (by rw [hid, hfid]) (hown.2 a r (Std.OrientedCmp.lt_of_gt hca)
              ⟨art, ha, hr'⟩)
        exact hno f s ((C08_duplicates hk h f s).2 ⟨c, b, hown, hs, hfid.symm, hcb⟩)
    cases hc : compare a b with
    | eq => exact Std.LawfulEqOrd.eq_of_compare hc
    | lt => exact absurd hc (aux a b r s hr hs hid)
    | gt => exact absurd (Std.OrientedCmp.lt_of_gt hc) (aux b a s r hs hr hid.symm)
  · intro hu first again hmem
    obtain ⟨a, b, ho, hd, hid, hlt⟩ := (C08_duplicates hk h first again).1 hmem
    have := hu a b first again ho.1 hd hid.symm
    subst this
    simp at hlt

/-- **C09** The unused-relation errors are, with multiplicity and in order, the relations whose
covered list is empty. -/
theorem C09_unused_relation :
    tg.errors.filterMap (fun e => match e with
      | .unusedRelation rel => some rel
      | _ => none) =
    (tg.tracedRelations.filter (fun tr => tr.covered.isEmpty)).map (·.relation) := by
  obtain ⟨_, rfl⟩ := (trace_ok_iff hk tg).1 h
  unfold traced
  simp only [List.filterMap_append, List.filterMap_flatMap]
  have h2 : ∀ l : List Error, (∀ e ∈ l, ∀ a, e ≠ .unusedRelation a) →
      l.filterMap (fun e => match e with
        | .unusedRelation rel => some rel
        | _ => none) = [] := by
    intro l hl
    rw [List.filterMap_eq_nil_iff]
    intro e he
    split
    · exact absurd rfl (hl _ he _)
    · rfl
  rw [h2 (danglingCovers g), h2 (danglingDepends g), h2 (duplicateErrors g)]
  rotate_left
  · intro e he; obtain ⟨_, _, rfl, _⟩ := (mem_duplicateErrors hk e).1 he; simp
  · intro e he; obtain ⟨_, _, _, rfl, _⟩ := (mem_danglingDepends hk e).1 he; simp
  · intro e he; obtain ⟨_, _, _, rfl, _⟩ := (mem_danglingCovers hk e).1 he; simp
  simp only [List.append_nil, List.nil_append]
  induction g.relations with
  | nil => rfl
  | cons rel rels ih =>
    rw [List.flatMap_cons, ih, List.map_cons, List.filter_cons]
    have : (relationErrors g rel).filterMap (fun e => match e with
        | .unusedRelation rel => some rel
        | _ => none) = if (tracedRelation g rel).covered.isEmpty then [rel] else [] := by
      unfold relationErrors
      rw [List.filterMap_append, h2]
      · simp only [List.nil_append, tracedRelation, List.isEmpty_map]
        split <;> simp
      · intro e he a hae
        subst hae
        simp [mem_titleErrors] at he
    rw [this]
    split <;> simp [tracedRelation]

/-- **C10** (only-if) What `trace` returning implies about the relations. -/
theorem C10_traceable : Traceable g := ((trace_ok_iff hk tg).1 h).1

/-- **C11** Tracing keeps the input. -/
theorem C11_frame : tg.artefacts = g.artefacts ∧ tg.derived.keys = g.artefacts.keys ∧
    tg.tracedRelations.map (·.relation) = g.relations := by
  obtain ⟨_, rfl⟩ := (trace_ok_iff hk tg).1 h
  refine ⟨rfl, ?_, ?_⟩
  · apply BMap.keys_ext (BMap.keys_sorted _) (BMap.keys_sorted _)
    intro a
    rw [BMap.mem_keys_iff_isSome, BMap.mem_keys_iff_isSome]
    show ((derivedMap g).get a).isSome ↔ _
    unfold derivedMap
    rw [get_ofList_map]; simp
  · simp [traced, tracedRelation, Function.comp_def]

/-- **C04**, one error per dangling pair. -/
theorem C04_once (id up : RequirementId) :
    (tg.errors.countP (fun e => match e with
      | .coversUnknownRequirement r c _ => r.id == id && c == up
      | _ => false)) ≤ 1 := by
  obtain ⟨_, rfl⟩ := (trace_ok_iff hk tg).1 h
  unfold traced
  simp only [List.countP_append]
  have h2 : ∀ l : List Error, (∀ e ∈ l, ∀ a b c, e ≠ .coversUnknownRequirement a b c) →
      l.countP (fun e => match e with
      | .coversUnknownRequirement r c _ => r.id == id && c == up
      | _ => false) = 0 := by
    intro l hl
    rw [List.countP_eq_zero]
    intro e he
    split
    · exact absurd rfl (hl _ he _ _ _)
    · simp
  rw [h2 (danglingDepends g), h2 (duplicateErrors g), h2 (g.relations.flatMap (relationErrors g))]
  rotate_left
  · intro e he a b c hab
    subst hab
    obtain ⟨rel, _, he⟩ := List.mem_flatMap.1 he
    rw [mem_relationErrors] at he
    simp [mem_titleErrors] at he
  · intro e he; obtain ⟨_, _, rfl, _⟩ := (mem_duplicateErrors hk e).1 he; simp
  · intro e he; obtain ⟨_, _, _, rfl, _⟩ := (mem_danglingDepends hk e).1 he; simp
  simp only [Nat.zero_add, Nat.add_zero]
  unfold danglingCovers
  rw [List.countP_filterMap]
  have hnd : ((coverLinks g).filter (fun k => !linked g .upwards k)).Nodup :=
    (BMap.keys_nodup _).filter _
  have hle : ∀ l : List (RequirementId × RequirementId), l.Nodup →
      l.countP (fun k => k == (up, id)) ≤ 1 := by
    intro l hl
    exact List.nodup_iff_count.1 hl (up, id)
  refine Nat.le_trans (List.countP_mono_left ?_) (hle _ hnd)
  rintro ⟨k1, k2⟩ hk' hp
  cases ho : owner g k2 with
  | none => simp [ho] at hp
  | some r =>
    have hid := (exists_owner hk ho).1
    simp only [ho, Option.bind_some] at hp
    cases hf : r.covers.find? (fun r => r.id == k1) with
    | none => simp [hf] at hp
    | some ref =>
      simp [hf] at hp
      simp [← hid, hp]

/-- **C05**, one error per dangling pair. -/
theorem C05_once (id low : RequirementId) :
    (tg.errors.countP (fun e => match e with
      | .dependOnUnknownRequirement r d _ => r.id == id && d == low
      | _ => false)) ≤ 1 := by
  obtain ⟨_, rfl⟩ := (trace_ok_iff hk tg).1 h
  unfold traced
  simp only [List.countP_append]
  have h2 : ∀ l : List Error, (∀ e ∈ l, ∀ a b c, e ≠ .dependOnUnknownRequirement a b c) →
      l.countP (fun e => match e with
      | .dependOnUnknownRequirement r d _ => r.id == id && d == low
      | _ => false) = 0 := by
    intro l hl
    rw [List.countP_eq_zero]
    intro e he
    split
    · exact absurd rfl (hl _ he _ _ _)
    · simp
  rw [h2 (danglingCovers g), h2 (duplicateErrors g), h2 (g.relations.flatMap (relationErrors g))]
  rotate_left
  · intro e he a b c hab
    subst hab
    obtain ⟨rel, _, he⟩ := List.mem_flatMap.1 he
    rw [mem_relationErrors] at he
    simp [mem_titleErrors] at he
  · intro e he; obtain ⟨_, _, rfl, _⟩ := (mem_duplicateErrors hk e).1 he; simp
  · intro e he; obtain ⟨_, _, _, rfl, _⟩ := (mem_danglingCovers hk e).1 he; simp
  simp only [Nat.zero_add, Nat.add_zero]
  unfold danglingDepends
  rw [List.countP_filterMap]
  have hnd : ((dependLinks g).filter (fun k => !linked g .downwards k)).Nodup :=
    (BMap.keys_nodup _).filter _
  have hle : ∀ l : List (RequirementId × RequirementId), l.Nodup →
      l.countP (fun k => k == (id, low)) ≤ 1 := by
    intro l hl
    exact List.nodup_iff_count.1 hl (id, low)
  refine Nat.le_trans (List.countP_mono_left ?_) (hle _ hnd)
  rintro ⟨k1, k2⟩ hk' hp
  cases ho : owner g k1 with
  | none => simp [ho] at hp
  | some r =>
    have hid := (exists_owner hk ho).1
    simp only [ho, Option.bind_some] at hp
    cases hf : r.depends.find? (fun r => r.id == k2) with
    | none => simp [hf] at hp
    | some ref =>
      simp [hf] at hp
      simp [← hid, hp]

end

/-- **C10** Tracing never panics on a graph whose relations name existing artefacts. -/
theorem C10_no_panic {g : Graph} (hk : Keyed g) (hr : RelationsExist g) :
    ∃ tg, trace g = .ok tg := by
  refine ⟨traced g, (trace_ok_iff hk _).2 ⟨?_, rfl⟩⟩
  intro rel hrel
  obtain ⟨⟨art, ha⟩, hl⟩ := hr rel hrel
  exact ⟨art, ha, fun _ a haa => by obtain ⟨b, hb⟩ := hl a haa; simp [hb]⟩

/-- **C10** A relation with an unknown upper artefact makes it panic. -/
theorem C10_panic_unknown_upper {g : Graph} (hk : Keyed g) {rel : Relation}
    (hrel : rel ∈ g.relations) (hu : g.artefacts.get rel.upper = none) :
    ∃ p, trace g = .error p := by
  cases hf : trace g with
  | error p => exact ⟨p, rfl⟩
  | ok tg =>
    obtain ⟨art, ha, _⟩ := C10_traceable hk hf rel hrel
    rw [hu] at ha; cases ha

/-! ### C12 -/

/-- The parts of the specification that only read the artefacts. -/
theorem relEvents_congr {g g' : Graph} (ha : g.artefacts = g'.artefacts) (rel : Relation) :
    relEvents g rel = relEvents g' rel ∧ tracedRelation g rel = tracedRelation g' rel ∧
      relationErrors g rel = relationErrors g' rel := by
  obtain ⟨a, r⟩ := g
  obtain ⟨a', r'⟩ := g'
  cases ha
  exact ⟨rfl, rfl, rfl⟩

theorem keyed_congr {g g' : Graph} (ha : g.artefacts = g'.artefacts) (hk : Keyed g) : Keyed g' := by
  obtain ⟨h1, h2⟩ := hk
  rw [ha] at h1 h2
  exact ⟨h1, h2⟩

theorem owned_congr {g g' : Graph} (ha : g.artefacts = g'.artefacts) (a : ArtefactId) :
    owned g a = owned g' a := by
  obtain ⟨a, r⟩ := g
  obtain ⟨a', r'⟩ := g'
  cases ha
  rfl

/-- **C12** The covered and uncovered lists of a relation depend only on the artefacts and that
relation. -/
theorem C12_independent {g g' : Graph} {tg tg' : TracedGraph} (hk : Keyed g)
    (ha : g.artefacts = g'.artefacts) (h : trace g = .ok tg) (h' : trace g' = .ok tg')
    {tr tr' : TracedRelation} (ht : tr ∈ tg.tracedRelations) (ht' : tr' ∈ tg'.tracedRelations)
    (hr : tr.relation = tr'.relation) : tr = tr' := by
  obtain ⟨_, rfl⟩ := (trace_ok_iff hk tg).1 h
  obtain ⟨_, rfl⟩ := (trace_ok_iff (keyed_congr ha hk) tg').1 h'
  simp only [traced, List.mem_map] at ht ht'
  obtain ⟨rel, _, rfl⟩ := ht
  obtain ⟨rel', _, rfl⟩ := ht'
  have hr : rel = rel' := hr
  subst hr
  exact (relEvents_congr ha rel).2.1

theorem linked_congr {g g' : Graph} (h : ∀ e, e ∈ allEvents g ↔ e ∈ allEvents g')
    (d : CoverageDirection) (k : RequirementId × RequirementId) : linked g d k = linked g' d k := by
  rw [Bool.eq_iff_iff, linked_iff, linked_iff]
  simp only [h]

theorem derived_congr {g g' : Graph} (ha : g.artefacts = g'.artefacts)
    (h : ∀ e, e ∈ allEvents g ↔ e ∈ allEvents g') (a : ArtefactId) (art : Artefact) :
    derived g a art = derived g' a art := by
  unfold derived
  rw [owned_congr ha]
  split
  · rfl
  · apply List.filter_congr
    intro id _
    rw [Bool.eq_iff_iff, List.all_eq_true, List.all_eq_true]
    simp only [h]

/-- **C12** Reordering the relations reorders the traced relations alike, leaves the derived lists
unchanged and permutes the errors. -/
theorem C12_permutation {g g' : Graph} {tg : TracedGraph} (hk : Keyed g)
    (ha : g.artefacts = g'.artefacts) (hp : g.relations.Perm g'.relations)
    (h : trace g = .ok tg) :
    ∃ tg', trace g' = .ok tg' ∧ tg'.artefacts = tg.artefacts ∧
      (∃ f : Relation → TracedRelation, tg.tracedRelations = g.relations.map f ∧
        tg'.tracedRelations = g'.relations.map f) ∧
      tg.derived = tg'.derived ∧ tg.errors.Perm tg'.errors := by
  obtain ⟨htr, rfl⟩ := (trace_ok_iff hk tg).1 h
  have hk' := keyed_congr ha hk
  have hev : ∀ e, e ∈ allEvents g ↔ e ∈ allEvents g' := by
    intro e
    unfold allEvents
    simp only [List.mem_flatMap, hp.mem_iff, (relEvents_congr ha _).1]
  refine ⟨traced g', (trace_ok_iff hk' _).2 ⟨?_, rfl⟩, ha.symm, ?_, ?_, ?_⟩
  · intro rel hrel
    rw [← ha]
    exact htr rel (hp.mem_iff.2 hrel)
  · refine ⟨tracedRelation g, rfl, ?_⟩
    show g'.relations.map (tracedRelation g') = _
    apply List.map_congr_left
    intro rel _
    exact (relEvents_congr ha rel).2.1.symm
  · show derivedMap g = derivedMap g'
    unfold derivedMap
    rw [ha]
    congr 1
    apply List.map_congr_left
    intro e _
    rw [derived_congr ha hev]
  · have hcl : coverLinks g = coverLinks g' := by
      unfold coverLinks
      rw [ha]
      have : owned g = owned g' := funext (owned_congr ha)
      rw [this]
    have hdl : dependLinks g = dependLinks g' := by
      unfold dependLinks
      rw [ha]
      have : owned g = owned g' := funext (owned_congr ha)
      rw [this]
    have how : ∀ id, owner g id = owner g' id := by intro id; unfold owner; rw [ha]
    have h1 : duplicateErrors g = duplicateErrors g' := by unfold duplicateErrors; rw [ha]
    have h2 : danglingCovers g = danglingCovers g' := by
      unfold danglingCovers
      rw [hcl]
      simp only [linked_congr hev, how]
    have h3 : danglingDepends g = danglingDepends g' := by
      unfold danglingDepends
      rw [hdl]
      simp only [linked_congr hev, how]
    have h4 : (g.relations.flatMap (relationErrors g)).Perm
        (g'.relations.flatMap (relationErrors g')) := by
      have : relationErrors g = relationErrors g' :=
        funext (fun rel => (relEvents_congr ha rel).2.2)
      rw [this]
      exact hp.flatMap_right _
    unfold traced
    simp only
    rw [h1, h2, h3]
    exact ((h4.append_left _).append_right _).append_right _

/-- **C13** Appending relations never adds a derived requirement, never adds a dangling reference,
and keeps the traced relations that were there. -/
theorem C13_monotone {g g' : Graph} {tg' : TracedGraph} (hk : Keyed g) (more : List Relation)
    (hg : g' = { g with relations := g.relations ++ more }) (h' : trace g' = .ok tg') :
    ∃ tg, trace g = .ok tg ∧
      tg.tracedRelations <+: tg'.tracedRelations ∧
      (∀ a d', tg'.derived.get a = some d' → ∃ d, tg.derived.get a = some d ∧ d'.Sublist d) ∧
      (∀ req up l, .coversUnknownRequirement req up l ∈ tg'.errors →
        .coversUnknownRequirement req up l ∈ tg.errors) ∧
      (∀ req low l, .dependOnUnknownRequirement req low l ∈ tg'.errors →
        .dependOnUnknownRequirement req low l ∈ tg.errors) := by
  have ha : g.artefacts = g'.artefacts := by rw [hg]
  have hk' := keyed_congr ha hk
  have hrel : g'.relations = g.relations ++ more := by rw [hg]
  obtain ⟨htr, rfl⟩ := (trace_ok_iff hk' tg').1 h'
  have htg : trace g = .ok (traced g) := by
    refine (trace_ok_iff hk _).2 ⟨?_, rfl⟩
    intro rel hr
    rw [ha]
    exact htr rel (by rw [hrel]; simp [hr])
  have hpre : (traced g).tracedRelations <+: (traced g').tracedRelations := by
    show g.relations.map (tracedRelation g) <+: g'.relations.map (tracedRelation g')
    rw [hrel, show tracedRelation g' = tracedRelation g from
      funext (fun rel => (relEvents_congr ha.symm rel).2.1)]
    simp
  have hown : ∀ a r, Owns g' a r ↔ Owns g a r := by
    intro a r; unfold Owns Defines; rw [ha]
  refine ⟨traced g, htg, hpre, ?_, ?_, ?_⟩
  · intro a d' hd'
    have hd1 : (traced g').derived.get a = (g'.artefacts.get a).map (derived g' a) := by
      show (derivedMap g').get a = _
      unfold derivedMap; rw [get_ofList_map]
    have hd2 : (traced g).derived.get a = (g.artefacts.get a).map (derived g a) := by
      show (derivedMap g).get a = _
      unfold derivedMap; rw [get_ofList_map]
    rw [hd1] at hd'
    rw [hd2, ha]
    cases hga : g'.artefacts.get a with
    | none => rw [hga] at hd'; cases hd'
    | some art =>
      rw [hga] at hd'
      simp only [Option.map_some, Option.some.injEq] at hd' ⊢
      subst hd'
      refine ⟨_, rfl, ?_⟩
      unfold derived
      rw [owned_congr ha]
      split
      · exact List.Sublist.refl _
      · have : ∀ id, ((allEvents g').all (fun e => e.lower.id != id)) =
            (((allEvents g').all (fun e => e.lower.id != id)) &&
              ((allEvents g).all (fun e => e.lower.id != id))) := by
          intro id
          have hae : allEvents g' = allEvents g ++ more.flatMap (relEvents g) := by
            unfold allEvents
            rw [hrel, List.flatMap_append, show relEvents g' = relEvents g from
              funext (fun rel => (relEvents_congr ha.symm rel).1)]
          rw [hae, List.all_append]
          cases (allEvents g).all (fun e => e.lower.id != id) <;> simp
        rw [List.filter_congr (fun id _ => this id), ← List.filter_filter]
        exact List.filter_sublist
  · intro req up l hmem
    rw [C04_covers_unknown hk' h'] at hmem
    rw [C04_covers_unknown hk htg]
    obtain ⟨⟨a, h1⟩, h2, h3⟩ := hmem
    exact ⟨⟨a, (hown a req).1 h1⟩, h2, fun tr htr => h3 tr (hpre.subset htr)⟩
  · intro req low l hmem
    rw [C05_depends_unknown hk' h'] at hmem
    rw [C05_depends_unknown hk htg]
    obtain ⟨⟨a, h1⟩, h2, h3⟩ := hmem
    exact ⟨⟨a, (hown a req).1 h1⟩, h2, fun tr htr => h3 tr (hpre.subset htr)⟩

/-! ### Examples for the relation properties -/

/-- `C12_permutation` and `C13_monotone` apply to the example graph with its relations swapped and
with a repeated relation. -/
example : (trace { Example.graph with relations := Example.graph.relations.reverse }).isOk = true ∧
    (trace { Example.graph with
      relations := Example.graph.relations ++ Example.graph.relations }).isOk = true := by
  decide +kernel

end Reqtrace
