import Verif.Props.Trace
import Verif.Spec.Project

/-!
# C67, C73, C74: the complete result of tracing, and what it depends on
-/

namespace Reqtrace

open Spec

theorem lt_irrefl_cmp {a : Str} (h : compare a a = .lt) : False := by
  rw [Std.ReflOrd.compare_self] at h; cases h

theorem defines_owner {g : Graph} (hu : ∀ a b r s, Defines g a r → Defines g b s → r.id = s.id → a = b)
    {a : ArtefactId} {r : Requirement} (h : Defines g a r) : Owns g a r := by
  refine ⟨h, fun b s hlt hs hid => ?_⟩
  have := hu b a s r hs h hid
  subst this
  exact lt_irrefl_cmp hlt

theorem defines_unique {g : Graph} {a : ArtefactId} {r s : Requirement} (h1 : Defines g a r) (h2 : Defines g a s)
    (hid : r.id = s.id) : r = s := by
  obtain ⟨art, ha, hr⟩ := h1
  obtain ⟨art', ha', hs⟩ := h2
  rw [ha] at ha'; cases ha'
  rw [hid, hs] at hr; cases hr; rfl

section
variable {g : Graph} {tg : TracedGraph} (hk : Keyed g) (h : trace g = .ok tg)
include hk h

/-- **C67** The errors of tracing with order and multiplicity: the ids that are defined again, then for each relation
the titles in the order of its coverages and that it is unused, then the `covers` and the `depends` references that
lead nowhere. -/
theorem C67_errors : tg.errors =
    duplicateErrors g ++
    g.relations.flatMap (fun rel => (relEvents g rel).flatMap (titleErrors g rel) ++
      (if (relEvents g rel).isEmpty then [.unusedRelation rel] else [])) ++
    danglingCovers g ++ danglingDepends g := by
  obtain ⟨_, rfl⟩ := (trace_ok_iff hk tg).1 h
  rfl

/-- **C67** The whole result. -/
theorem C67_result : tg = traced g := ((trace_ok_iff hk tg).1 h).2

/-- **C67** There is no error exactly if nothing is wrong with ids, relations, references and titles. -/
theorem C67_no_errors_iff : tg.errors = [] ↔ Sound g := by
  constructor
  · intro he
    have hno : ∀ e, e ∉ tg.errors := by rw [he]; exact fun e h => by cases h
    have huniq := (C08_none_iff_unique hk h).1 (fun _ _ => hno _)
    obtain ⟨_, rfl⟩ := (trace_ok_iff hk tg).1 h
    have hmem : ∀ e, ¬ _ := fun e hm => hno e ((mem_errors hk e).2 hm)
    refine ⟨huniq, ?_, ?_, ?_, ?_⟩
    · intro rel hrel
      cases hev : relEvents g rel with
      | nil => exact absurd (.inr (.inl ⟨rel, hrel, .inr ⟨hev, rfl⟩⟩)) (hmem (.unusedRelation rel))
      | cons e es =>
        have := (mem_relEvents hk rel e).1 (by rw [hev]; exact List.mem_cons_self)
        exact ⟨_, _, _, _, _, this⟩
    · intro a l hl ref href
      have hown := defines_owner huniq hl
      apply Classical.byContradiction
      intro hc
      cases hf : l.covers.find? (fun r => r.id == ref.id) with
      | none => have := List.find?_eq_none.1 hf ref href; simp at this
      | some ref0 =>
        refine hmem (.coversUnknownRequirement l ref.id ref0.location)
          (.inr (.inr (.inl ⟨l, ref.id, ref0, rfl, ⟨a, hown⟩, hf, ?_⟩)))
        rintro ev hev ⟨h1, h2, h3⟩
        obtain ⟨rel, hrel, hest⟩ := (mem_allEvents hk ev).1 hev
        rw [h1] at hest
        cases hest with
        | up e1 e2 e3 e4 e5 =>
          have ha := huniq _ _ _ _ e3.1 hl h3
          have hl' := defines_unique (ha ▸ e3.1) hl h3
          exact hc ⟨rel, hrel, ev.upper, .up e1 (ha ▸ e2) hown href h2.symm⟩
    · intro a u hu ref href
      have hown := defines_owner huniq hu
      apply Classical.byContradiction
      intro hc
      cases hf : u.depends.find? (fun r => r.id == ref.id) with
      | none => have := List.find?_eq_none.1 hf ref href; simp at this
      | some ref0 =>
        refine hmem (.dependOnUnknownRequirement u ref.id ref0.location)
          (.inr (.inr (.inr ⟨u, ref.id, ref0, rfl, ⟨a, hown⟩, hf, ?_⟩)))
        rintro ev hev ⟨h1, h2, h3⟩
        obtain ⟨rel, hrel, hest⟩ := (mem_allEvents hk ev).1 hev
        rw [h1] at hest
        cases hest with
        | down e1 e2 e3 e4 e5 =>
          have ha := huniq _ _ _ _ e1 hu h2
          exact hc ⟨rel, hrel, ha, ev.lowerArt, ev.lower, .down (ha.symm ▸ hu) e2 e3 href h3.symm⟩
    · intro rel hrel a u l ref d hest
      have hev := (mem_relEvents hk rel ⟨a, u, l, ref, d⟩).2 hest
      have ht : ∀ e, e ∉ titleErrors g rel ⟨a, u, l, ref, d⟩ := fun e he =>
        hmem e (.inr (.inl ⟨rel, hrel, .inl ⟨_, hev, he⟩⟩))
      simp only [mem_titleErrors] at ht
      have hneeds : ∀ b, needsTitle g b ≠ true → ∀ art, g.artefacts.get b = some art → art.referenceWithTitle = false := by
        intro b hb art hart
        cases hw : art.referenceWithTitle with
        | false => rfl
        | true => exact absurd ((needsTitle_iff g b).2 ⟨art, hart, hw⟩) hb
      cases d with
      | downwards =>
        cases hr : ref.title with
        | none =>
          refine .inr ⟨rfl, hneeds _ fun hn => ht (.referencedWithoutTitle l ref.location) ?_⟩
          exact .inl ⟨rfl, .inr ⟨hr, hn, rfl⟩⟩
        | some t =>
          refine .inl ⟨?_, by simp⟩
          apply Classical.byContradiction
          intro hne
          exact ht (.dependWithWrongTitle u l t ref.location) (.inl ⟨rfl, .inl ⟨t, hr, fun hh => hne hh.symm, rfl⟩⟩)
      | upwards =>
        cases hr : ref.title with
        | none =>
          refine .inr ⟨rfl, hneeds _ fun hn => ht (.referencedWithoutTitle u ref.location) ?_⟩
          exact .inr ⟨rfl, .inr ⟨hr, hn, rfl⟩⟩
        | some t =>
          refine .inl ⟨?_, by simp⟩
          apply Classical.byContradiction
          intro hne
          exact ht (.coveredWithWrongTitle u l t ref.location) (.inr ⟨rfl, .inl ⟨t, hr, fun hh => hne hh.symm, rfl⟩⟩)
  · intro hs
    obtain ⟨_, rfl⟩ := (trace_ok_iff hk tg).1 h
    rw [List.eq_nil_iff_forall_not_mem]
    intro e he
    rcases (mem_errors hk e).1 he with ⟨first, again, rfl, a, b, hown, hdef, hid, hlt⟩ |
      ⟨rel, hrel, ⟨ev, hev, ht⟩ | ⟨hnil, rfl⟩⟩ | ⟨req, up, ref, rfl, ⟨a, hown⟩, hf, hno⟩ |
      ⟨req, low, ref, rfl, ⟨a, hown⟩, hf, hno⟩
    · have := hs.unique a b first again hown.1 hdef hid.symm
      subst this
      exact lt_irrefl_cmp hlt
    · have hest := (mem_relEvents hk rel ev).1 hev
      have htit := hs.titles rel hrel _ _ _ _ _ hest
      have hneeds : ∀ b, needsTitle g b = true → ∃ art, g.artefacts.get b = some art ∧ art.referenceWithTitle ≠ false := by
        intro b hb
        obtain ⟨art, h1, h2⟩ := (needsTitle_iff g b).1 hb
        exact ⟨art, h1, by rw [h2]; simp⟩
      rcases mem_titleErrors.1 ht with ⟨hd, ⟨t, h1, h2, _⟩ | ⟨h1, h2, _⟩⟩ | ⟨hd, ⟨t, h1, h2, _⟩ | ⟨h1, h2, _⟩⟩ <;>
        rw [hd] at htit <;> rcases htit with ⟨h3, h4⟩ | ⟨h3, h4⟩
      · exact h2 (h3.symm.trans h1)
      · rw [h1] at h3; cases h3
      · exact h4 h1
      · obtain ⟨art, h5, h6⟩ := hneeds _ h2
        exact h6 (h4 art h5)
      · exact h2 (h3.symm.trans h1)
      · rw [h1] at h3; cases h3
      · exact h4 h1
      · obtain ⟨art, h5, h6⟩ := hneeds _ h2
        exact h6 (h4 art h5)
    · obtain ⟨a, u, l, ref, d, hest⟩ := hs.used rel hrel
      have := (mem_relEvents hk rel ⟨a, u, l, ref, d⟩).2 hest
      rw [hnil] at this; cases this
    · have href := List.mem_of_find?_eq_some hf
      have hid := List.find?_some hf
      obtain ⟨rel, hrel, u, hest⟩ := hs.covers a req hown.1 ref href
      refine hno ⟨a, u, req, ref, .upwards⟩ ((mem_allEvents hk _).2 ⟨rel, hrel, hest⟩) ⟨rfl, ?_, rfl⟩
      cases hest with
      | up e1 e2 e3 e4 e5 => rw [← e5]; simpa using hid
    · have href := List.mem_of_find?_eq_some hf
      have hid := List.find?_some hf
      obtain ⟨rel, hrel, _, b, l, hest⟩ := hs.depends a req hown.1 ref href
      refine hno ⟨b, req, l, ref, .downwards⟩ ((mem_allEvents hk _).2 ⟨rel, hrel, hest⟩) ⟨rfl, rfl, ?_⟩
      cases hest with
      | down e1 e2 e3 e4 e5 => rw [← e5]; simpa using hid

/-- **C67** No requirement is uncovered exactly if all are covered along each relation. -/
theorem C67_covered_iff : (∀ tr ∈ tg.tracedRelations, tr.uncovered = []) ↔ FullyCovered g := by
  obtain ⟨htr, rfl⟩ := (trace_ok_iff hk tg).1 h
  simp only [traced, List.mem_map, forall_exists_index, and_imp, forall_apply_eq_imp_iff₂, tracedRelation, uncovered,
    List.map_eq_nil_iff, List.filter_eq_nil_iff, FullyCovered]
  constructor
  · intro hh rel hrel u hu
    have h1 := hh rel hrel u ((mem_upperReqs hk rel u).2 hu)
    cases hev : reqEvents g rel u with
    | nil => rw [hev] at h1; simp at h1
    | cons e es =>
      have hmem : e ∈ reqEvents g rel u := by rw [hev]; exact List.mem_cons_self
      have heu := reqEvents_upper hmem
      have : e ∈ relEvents g rel := List.mem_flatMap.2 ⟨u, (mem_upperReqs hk rel u).2 hu, hmem⟩
      have := (mem_relEvents hk rel e).1 this
      rw [heu] at this
      exact ⟨_, _, _, _, this⟩
  · intro hh rel hrel u hu
    obtain ⟨a, l, ref, d, hest⟩ := hh rel hrel u ((mem_upperReqs hk rel u).1 hu)
    have := (mem_relEvents hk rel ⟨a, u, l, ref, d⟩).2 hest
    obtain ⟨u', _, hev⟩ := List.mem_flatMap.1 this
    have := reqEvents_upper hev
    simp only at this
    subst this
    intro hempty
    rw [List.isEmpty_iff] at hempty
    rw [hempty] at hev; cases hev

/-- **C67** Nothing is listed as derived exactly if every requirement covers something, except in artefacts that ignore
derived requirements. -/
theorem C67_derived_iff : (∀ a ids, tg.derived.get a = some ids → ids = []) ↔ NothingDerived g := by
  have hder : ∀ a ids, tg.derived.get a = some ids → ∃ art, g.artefacts.get a = some art := by
    intro a ids hids
    obtain ⟨_, rfl⟩ := (trace_ok_iff hk tg).1 h
    cases hx : g.artefacts.get a with
    | some x => exact ⟨x, rfl⟩
    | none =>
      have : (derivedMap g).get a = some ids := hids
      unfold derivedMap at this
      rw [get_ofList_map, hx] at this; cases this
  constructor
  · intro hh a art ha hign l hl
    obtain ⟨d, hd, _, hmem⟩ := C03_derived_exact hk h ha
    have hnil := hh a d hd
    subst hnil
    apply Classical.byContradiction
    intro hno
    refine absurd ((hmem l.id).2 ⟨hign, ⟨l, hl, rfl⟩, fun tr htr c hc hcl => hno ?_⟩) List.not_mem_nil
    obtain ⟨i, hi⟩ := List.getElem?_of_mem htr
    obtain ⟨rel, b, u, l', ref, hrel, hest, hc'⟩ := (C01_coverage_exact hk h hi c).1 hc
    have hown : Owns g b l' := by
      generalize c.direction = d at hest
      cases hest <;> assumption
    have hid : l'.id = l.id := by rw [hc'] at hcl; exact hcl
    obtain ⟨rfl, rfl⟩ := owned_unique hk ((mem_owned hk b l').2 hown) ((mem_owned hk a l).2 hl) hid
    exact ⟨rel, List.mem_of_getElem? hrel, u, ref, c.direction, hest⟩
  · intro hn a ids hids
    obtain ⟨art, ha⟩ := hder a ids hids
    obtain ⟨d, hd, _, hmem⟩ := C03_derived_exact hk h ha
    rw [hids] at hd; cases hd
    cases ids with
    | nil => rfl
    | cons id rest =>
      obtain ⟨hign, ⟨l, hl, rfl⟩, hno⟩ := (hmem id).1 List.mem_cons_self
      obtain ⟨rel, hrel, u, ref, d, hest⟩ := hn a art ha hign l hl
      obtain ⟨i, hi⟩ := List.getElem?_of_mem hrel
      obtain ⟨_, rfl⟩ := (trace_ok_iff hk tg).1 h
      have hi' : (traced g).tracedRelations[i]? = some (tracedRelation g rel) := by
        simp [traced, hi]
      exact absurd rfl (hno _ (List.mem_of_getElem? hi') ⟨u.id, l.id, ref.location, d⟩
        ((C01_coverage_exact hk h hi' _).2 ⟨rel, a, u, l, ref, hi, hest, rfl⟩))

end

namespace Example

def v1 := req c!"U1" (some c!"one") [] [ref c!"L1" (some c!"low") 1]
def v2 := req c!"U2" none [] []
def m1 := req c!"L1" (some c!"low") [] []
def m2 := req c!"L2" none [ref c!"U2" none 4, ref c!"U1" (some c!"one") 5] []

/-- Two artefacts, all references right, everything covered, nothing derived. -/
def clean : Graph :=
  ⟨.ofList [(c!"UP", art c!"UP" true false [v1, v2]), (c!"LO", art c!"LO" false true [m1, m2])],
    [⟨c!"UP", [c!"LO"]⟩]⟩

theorem clean_keyed : Keyed clean := keyed_of_check (by decide +kernel)

theorem clean_traced : trace clean = .ok
    { artefacts := clean.artefacts
      tracedRelations := [⟨⟨c!"UP", [c!"LO"]⟩, [⟨c!"U1", c!"L1", loc 1, .downwards⟩, ⟨c!"U1", c!"L2", loc 5, .upwards⟩,
        ⟨c!"U2", c!"L2", loc 4, .upwards⟩], []⟩]
      derived := .ofList [(c!"LO", []), (c!"UP", [])]
      errors := [] } := by
  decide +kernel

end Example

/-- `clean` is sound, fully covered and nothing in it is derived; `graph` is none of it. -/
example : (Sound Example.clean ∧ FullyCovered Example.clean ∧ NothingDerived Example.clean) ∧
    ¬ Sound Example.graph ∧ ¬ FullyCovered Example.graph ∧ ¬ NothingDerived Example.graph := by
  have hc := Example.clean_traced
  have hg := Example.graph_traced
  refine ⟨⟨(C67_no_errors_iff Example.clean_keyed hc).1 rfl, (C67_covered_iff Example.clean_keyed hc).1 ?_,
    (C67_derived_iff Example.clean_keyed hc).1 ?_⟩, ?_, ?_, ?_⟩
  · simp
  · intro a ids ha
    have := (BMap.get_eq_some_iff _ _ _).1 ha
    have hall : ∀ e ∈ (BMap.ofList [(c!"LO", ([] : List RequirementId)), (c!"UP", [])]).entries, e.2 = [] := by
      decide +kernel
    exact hall _ this
  · intro hs; have := (C67_no_errors_iff Example.graph_keyed hg).2 hs; cases this
  · intro hs
    have := (C67_covered_iff Example.graph_keyed hg).2 hs _ List.mem_cons_self
    cases this
  · intro hs
    have := (C67_derived_iff Example.graph_keyed hg).2 hs c!"LO" [c!"L3"] (by decide +kernel)
    cases this

/-! ## C73, C74 -/

theorem Spec.MoreReferences.defines {g g' : Graph} (hk' : Keyed g') (hm : MoreReferences g g') {a : ArtefactId} {r : Requirement}
    (h : Defines g a r) : ∃ r', Defines g' a r' ∧ r'.id = r.id ∧ IdsIn r.covers r'.covers ∧ IdsIn r.depends r'.depends := by
  obtain ⟨art, ha, hr⟩ := h
  obtain ⟨art', ha', _, h2, _⟩ := hm.artefact a art ha
  obtain ⟨r', hr', h3, h4⟩ := h2 _ _ hr
  have hid := hk'.requirement a art' ha' _ _ hr'
  exact ⟨r', ⟨art', ha', by rw [hid]; exact hr'⟩, hid, h3, h4⟩

theorem Spec.MoreReferences.defined {g g' : Graph} (hk : Keyed g) (hm : MoreReferences g g') {a : ArtefactId} {r' : Requirement}
    (h : Defines g' a r') : ∃ r, Defines g a r ∧ r.id = r'.id := by
  obtain ⟨art', ha', hr'⟩ := h
  cases ha : g.artefacts.get a with
  | none => rw [hm.noArtefact a ha] at ha'; cases ha'
  | some art =>
    obtain ⟨art'', h0, _, _, h3⟩ := hm.artefact a art ha
    rw [ha'] at h0; cases h0
    cases hr : art.requirements.get r'.id with
    | none => rw [h3 _ hr] at hr'; cases hr'
    | some r =>
      have hid := hk.requirement a art ha _ _ hr
      exact ⟨r, ⟨art, ha, by rw [hid]; exact hr⟩, hid⟩

theorem Spec.MoreReferences.owns {g g' : Graph} (hk : Keyed g) (hm : MoreReferences g g') {a : ArtefactId}
    {r r' : Requirement} (h : Owns g a r) (h' : Defines g' a r') (hid : r'.id = r.id) : Owns g' a r' := by
  refine ⟨h', fun b s' hlt hs' he => ?_⟩
  obtain ⟨s, hs, hsid⟩ := hm.defined hk hs'
  exact h.2 b s hlt hs (hsid.trans (he.trans hid))

/-- Coverage is kept when references are added. -/
theorem Spec.MoreReferences.establishes {g g' : Graph} (hk : Keyed g) (hk' : Keyed g') (hm : MoreReferences g g')
    {rel : Relation} {a : ArtefactId} {u l : Requirement} {ref : Reference} {d : CoverageDirection}
    (h : Establishes g rel a u l ref d) :
    ∃ u' l' ref', Establishes g' rel a u' l' ref' d ∧ u'.id = u.id ∧ l'.id = l.id := by
  cases h with
  | down h1 h2 h3 h4 h5 =>
    obtain ⟨u', hu', huid, _, hdep⟩ := hm.defines hk' h1
    obtain ⟨l', hl', hlid, _, _⟩ := hm.defines hk' h3.1
    obtain ⟨ref', hr', hrid⟩ := hdep ref h4
    exact ⟨u', l', ref', .down hu' h2 (hm.owns hk h3 hl' hlid) hr' (hrid.trans (h5.trans hlid.symm)), huid, hlid⟩
  | up h1 h2 h3 h4 h5 =>
    obtain ⟨u', hu', huid, _, _⟩ := hm.defines hk' h1
    obtain ⟨l', hl', hlid, hcov, _⟩ := hm.defines hk' h3.1
    obtain ⟨ref', hr', hrid⟩ := hcov ref h4
    exact ⟨u', l', ref', .up hu' h2 (hm.owns hk h3 hl' hlid) hr' (hrid.trans (h5.trans huid.symm)), huid, hlid⟩

theorem Spec.MoreReferences.traceable {g g' : Graph} (hm : MoreReferences g g') (h : Traceable g) : Traceable g' := by
  intro rel hrel
  rw [hm.relations] at hrel
  obtain ⟨art, ha, hl⟩ := h rel hrel
  obtain ⟨art', ha', _, h2, h3⟩ := hm.artefact _ _ ha
  refine ⟨art', ha', fun hne b hb => ?_⟩
  have hne' : art.requirements.values ≠ [] := by
    intro h0
    cases hv : art'.requirements.values with
    | nil => exact hne hv
    | cons r rs =>
      obtain ⟨k, hk⟩ := (BMap.mem_values_iff _ _).1 (show r ∈ art'.requirements.values by rw [hv]; exact List.mem_cons_self)
      cases hg : art.requirements.get k with
      | none => rw [h3 k hg] at hk; cases hk
      | some r0 =>
        have := (BMap.mem_values_iff _ _).2 ⟨k, hg⟩
        rw [h0] at this; cases this
  obtain ⟨x, hx⟩ := Option.isSome_iff_exists.1 (hl hne' b hb)
  obtain ⟨x', hx', _⟩ := hm.artefact _ _ hx
  rw [hx']; rfl

/-- **C73** Adding references never takes coverage away: all that was covered stays covered, nothing becomes uncovered
or derived, and tracing does not begin to panic. -/
theorem C73_references_help {g g' : Graph} {tg : TracedGraph} (hk : Keyed g) (hk' : Keyed g') (hm : MoreReferences g g')
    (h : trace g = .ok tg) : ∃ tg', trace g' = .ok tg' ∧
      (∀ (i : Nat) (tr tr' : TracedRelation), tg.tracedRelations[i]? = some tr → tg'.tracedRelations[i]? = some tr' →
        (∀ c ∈ tr.covered, ∃ c' ∈ tr'.covered, c'.upper = c.upper ∧ c'.lower = c.lower ∧ c'.direction = c.direction) ∧
        ∀ id ∈ tr'.uncovered, id ∈ tr.uncovered) ∧
      ∀ a ids', tg'.derived.get a = some ids' → ∃ ids, tg.derived.get a = some ids ∧ ∀ id ∈ ids', id ∈ ids := by
  obtain ⟨htr, htg⟩ := (trace_ok_iff hk tg).1 h
  have h' : trace g' = .ok (traced g') := (trace_ok_iff hk' _).2 ⟨hm.traceable htr, rfl⟩
  refine ⟨traced g', h', ?_, ?_⟩
  · intro i tr tr' hi hi'
    have hcov : ∀ c ∈ tr.covered, ∃ c' ∈ tr'.covered,
        c'.upper = c.upper ∧ c'.lower = c.lower ∧ c'.direction = c.direction := by
      intro c hc
      obtain ⟨rel, a, u, l, ref, hrel, hest, hc'⟩ := (C01_coverage_exact hk h hi c).1 hc
      obtain ⟨u', l', ref', hest', e1, e2⟩ := hm.establishes hk hk' hest
      refine ⟨⟨u'.id, l'.id, ref'.location, c.direction⟩, ?_, ?_, ?_, rfl⟩
      · exact (C01_coverage_exact hk' h' hi' _).2 ⟨rel, a, u', l', ref', by rw [hm.relations]; exact hrel, hest', rfl⟩
      · rw [hc']; exact e1
      · rw [hc']; exact e2
    refine ⟨hcov, fun id hid => ?_⟩
    obtain ⟨art', ha', _, hun'⟩ := C02_uncovered_complement hk' h' (List.mem_of_getElem? hi')
    obtain ⟨art, ha, _, hun⟩ := C02_uncovered_complement hk h (List.mem_of_getElem? hi)
    have hrel : tr'.relation = tr.relation := by
      have h1 := (C01_coverage_list hk h hi).1
      have h2 := (C01_coverage_list hk' h' hi').1
      rw [hm.relations, h1] at h2
      exact (Option.some.inj h2).symm
    obtain ⟨⟨r', hr'⟩, hno⟩ := (hun' id).1 hid
    refine (hun id).2 ⟨?_, ?_⟩
    · obtain ⟨art'', h0, _, _, h3⟩ := hm.artefact _ _ ha
      rw [← hrel, ha'] at h0; cases h0
      cases hg : art.requirements.get id with
      | none => rw [h3 id hg] at hr'; cases hr'
      | some r => exact ⟨r, rfl⟩
    · intro c hc hcu
      obtain ⟨c', hc', e1, _⟩ := hcov c hc
      exact hno c' hc' (e1.trans hcu)
  · intro a ids' hids'
    have hkeys := (C11_frame hk' h').1
    have hsome : ∃ art', g'.artefacts.get a = some art' := by
      cases hx : g'.artefacts.get a with
      | some x => exact ⟨x, rfl⟩
      | none =>
        have : (derivedMap g').get a = some ids' := hids'
        unfold derivedMap at this
        rw [get_ofList_map, hx] at this; cases this
    obtain ⟨art', ha'⟩ := hsome
    have hsome : ∃ art, g.artefacts.get a = some art := by
      cases hx : g.artefacts.get a with
      | some x => exact ⟨x, rfl⟩
      | none => rw [hm.noArtefact a hx] at ha'; cases ha'
    obtain ⟨art, ha⟩ := hsome
    obtain ⟨art'', h0, hign, _, _⟩ := hm.artefact a art ha
    rw [ha'] at h0; cases h0
    obtain ⟨d', hd', _, hder'⟩ := C03_derived_exact hk' h' ha'
    rw [hids'] at hd'; cases hd'
    obtain ⟨d, hd, _, hder⟩ := C03_derived_exact hk h ha
    refine ⟨d, hd, fun id hid => ?_⟩
    obtain ⟨h1, ⟨r', hown', hr'⟩, hno⟩ := (hder' id).1 hid
    refine (hder id).2 ⟨hign.symm.trans h1, ?_, ?_⟩
    · obtain ⟨r, hr, hrid⟩ := hm.defined hk hown'.1
      refine ⟨r, ⟨hr, fun b s hlt hs he => ?_⟩, hrid.trans hr'⟩
      obtain ⟨s', hs', hsid, _⟩ := hm.defines hk' hs
      exact hown'.2 b s' hlt hs' (hsid.trans (he.trans hrid))
    · intro tr htr' c hc hcl
      obtain ⟨i, hi⟩ := List.getElem?_of_mem htr'
      have hlen : (traced g').tracedRelations.length = tg.tracedRelations.length := by
        rw [htg]; simp [traced, hm.relations]
      have hlt : i < (traced g').tracedRelations.length := by
        rw [hlen]; exact (List.getElem?_eq_some_iff.1 hi).1
      obtain ⟨rel, a2, u, l, ref, hrel, hest, hc'⟩ := (C01_coverage_exact hk h hi c).1 hc
      obtain ⟨u', l', ref', hest', e1, e2⟩ := hm.establishes hk hk' hest
      have hi' := List.getElem?_eq_getElem hlt
      refine hno _ (List.mem_of_getElem? hi') ⟨u'.id, l'.id, ref'.location, c.direction⟩ ?_ ?_
      · exact (C01_coverage_exact hk' h' hi' _).2 ⟨rel, a2, u', l', ref', by rw [hm.relations]; exact hrel, hest', rfl⟩
      · rw [hc'] at hcl; exact e2.trans hcl

/-- **C74** What is covered, uncovered and derived depends on ids only, not on titles, locations and attributes. -/
theorem C74_ids_only {g g' : Graph} {tg tg' : TracedGraph} (hk : Keyed g) (hk' : Keyed g') (hm : MoreReferences g g')
    (hm' : MoreReferences g' g) (h : trace g = .ok tg) (h' : trace g' = .ok tg') :
    tg'.tracedRelations.map (fun tr => (tr.relation, tr.uncovered)) =
      tg.tracedRelations.map (fun tr => (tr.relation, tr.uncovered)) ∧
    tg'.derived = tg.derived ∧
    ∀ (i : Nat) (tr tr' : TracedRelation), tg.tracedRelations[i]? = some tr → tg'.tracedRelations[i]? = some tr' → ∀ up low d,
      (∃ c ∈ tr.covered, c.upper = up ∧ c.lower = low ∧ c.direction = d) ↔
      (∃ c ∈ tr'.covered, c.upper = up ∧ c.lower = low ∧ c.direction = d) := by
  obtain ⟨tg1, e1, hr1, hd1⟩ := C73_references_help hk hk' hm h
  rw [h'] at e1; cases e1
  obtain ⟨tg1, e1, hr2, hd2⟩ := C73_references_help hk' hk hm' h'
  rw [h] at e1; cases e1
  have hsort : ∀ {l l' : List RequirementId}, l.Pairwise (fun a b => compare a b = .lt) →
      l'.Pairwise (fun a b => compare a b = .lt) → (∀ x ∈ l, x ∈ l') → (∀ x ∈ l', x ∈ l) → l = l' := by
    intro l l' s s' i1 i2
    exact BMap.keys_ext s s' (fun x => ⟨i1 x, i2 x⟩)
  refine ⟨?_, ?_, ?_⟩
  · apply List.ext_getElem?
    intro i
    rw [List.getElem?_map, List.getElem?_map]
    have hlen : tg'.tracedRelations.length = tg.tracedRelations.length := by
      rw [((trace_ok_iff hk tg).1 h).2, ((trace_ok_iff hk' tg').1 h').2]; simp [traced, hm.relations]
    cases hi : tg.tracedRelations[i]? with
    | none =>
      rw [List.getElem?_eq_none (by rw [hlen]; exact List.getElem?_eq_none_iff.1 hi)]
    | some tr =>
      have hlt : i < tg'.tracedRelations.length := by rw [hlen]; exact (List.getElem?_eq_some_iff.1 hi).1
      have hi' := List.getElem?_eq_getElem hlt
      rw [hi']
      generalize tg'.tracedRelations[i] = tr' at hi'
      have hrel : tr'.relation = tr.relation := by
        have h1 := (C01_coverage_list hk h hi).1
        have h2 := (C01_coverage_list hk' h' hi').1
        rw [hm.relations, h1] at h2
        exact (Option.some.inj h2).symm
      obtain ⟨_, _, s1, _⟩ := C02_uncovered_complement hk h (List.mem_of_getElem? hi)
      obtain ⟨_, _, s2, _⟩ := C02_uncovered_complement hk' h' (List.mem_of_getElem? hi')
      simp only [Option.map_some, hrel]
      rw [hsort s2 s1 (hr1 i tr tr' hi hi').2 (hr2 i tr' tr hi' hi).2]
  · apply BMap.ext_get
    intro a
    cases hx : tg'.derived.get a with
    | none =>
      cases hy : tg.derived.get a with
      | none => rfl
      | some ids =>
        obtain ⟨ids', h1, _⟩ := hd2 a ids hy
        rw [hx] at h1; cases h1
    | some ids' =>
      obtain ⟨ids, h1, h2⟩ := hd1 a ids' hx
      obtain ⟨ids'', h3, h4⟩ := hd2 a ids h1
      rw [hx] at h3; cases h3
      rw [h1]
      have hsome : ∀ {g : Graph} {tg : TracedGraph} (_ : Keyed g) (_ : trace g = .ok tg) {ids}
          (_ : tg.derived.get a = some ids), ids.Pairwise (fun a b => compare a b = .lt) := by
        intro g tg hk h ids hids
        obtain ⟨_, rfl⟩ := (trace_ok_iff hk tg).1 h
        cases hx : g.artefacts.get a with
        | none =>
          have : (derivedMap g).get a = some ids := hids
          unfold derivedMap at this
          rw [get_ofList_map, hx] at this; cases this
        | some art =>
          obtain ⟨d, hd, hs, _⟩ := C03_derived_exact hk h hx
          rw [hids] at hd; cases hd; exact hs
      rw [hsort (hsome hk' h' hx) (hsome hk h h1) h2 h4]
  · intro i tr tr' hi hi' up low d
    constructor
    · rintro ⟨c, hc, rfl, rfl, rfl⟩
      obtain ⟨c', hc', x1, x2, x3⟩ := (hr1 i tr tr' hi hi').1 c hc
      exact ⟨c', hc', x1, x2, x3⟩
    · rintro ⟨c, hc, rfl, rfl, rfl⟩
      obtain ⟨c', hc', x1, x2, x3⟩ := (hr2 i tr' tr hi' hi).1 c hc
      exact ⟨c', hc', x1, x2, x3⟩

namespace Example

/-- Decides the part of `MoreReferences` about requirements. -/
def moreCheck (art art' : Artefact) : Bool :=
  art'.requirements.keys == art.requirements.keys &&
  art.requirements.entries.all (fun e => match art'.requirements.get e.1 with
    | none => false
    | some r' => e.2.covers.all (fun x => r'.covers.any (fun y => y.id == x.id)) &&
        e.2.depends.all (fun x => r'.depends.any (fun y => y.id == x.id)))

def moreGraphCheck (g g' : Graph) : Bool :=
  g'.relations == g.relations && g'.artefacts.keys == g.artefacts.keys &&
  g.artefacts.entries.all (fun e => match g'.artefacts.get e.1 with
    | none => false
    | some art' => art'.ignoreDerivedRequirements == e.2.ignoreDerivedRequirements && moreCheck e.2 art')

theorem get_none_of_keys {ν : Type} {m m' : BMap Str ν} (h : m'.keys = m.keys) {k : Str} (hk : m.get k = none) :
    m'.get k = none := by
  cases hx : m'.get k with
  | none => rfl
  | some v =>
    have h1 : k ∈ m'.keys := List.mem_map.2 ⟨_, (BMap.get_eq_some_iff _ _ _).1 hx, rfl⟩
    rw [h] at h1
    obtain ⟨⟨k', v'⟩, h2, rfl⟩ := List.mem_map.1 h1
    rw [(BMap.get_eq_some_iff _ _ _).2 h2] at hk; cases hk

theorem more_of_check {g g' : Graph} (h : moreGraphCheck g g' = true) : MoreReferences g g' := by
  simp only [moreGraphCheck, Bool.and_eq_true, beq_iff_eq, List.all_eq_true] at h
  obtain ⟨⟨h1, h2⟩, h3⟩ := h
  refine ⟨h1, fun a art ha => ?_, fun a ha => get_none_of_keys h2 ha⟩
  have := h3 _ ((BMap.get_eq_some_iff _ _ _).1 ha)
  cases hx : g'.artefacts.get a with
  | none => simp [hx] at this
  | some art' =>
    simp only [hx, moreCheck, Bool.and_eq_true, beq_iff_eq, List.all_eq_true] at this
    obtain ⟨h4, h5, h6⟩ := this
    refine ⟨art', rfl, h4, fun id r hr => ?_, fun id hn => get_none_of_keys h5 hn⟩
    have := h6 _ ((BMap.get_eq_some_iff _ _ _).1 hr)
    cases hy : art'.requirements.get id with
    | none => simp [hy] at this
    | some r' =>
      simp only [hy, Bool.and_eq_true, List.all_eq_true, List.any_eq_true, beq_iff_eq] at this
      exact ⟨r', rfl, this.1, this.2⟩

/-- `clean` with a reference less. -/
def sparse : Graph :=
  ⟨.ofList [(c!"UP", art c!"UP" true false [req c!"U1" none [] [], v2]),
    (c!"LO", art c!"LO" false true [m1, req c!"L2" none [ref c!"U1" none 4] []])], clean.relations⟩

/-- `clean` with other titles and locations. -/
def retitled : Graph :=
  ⟨.ofList [(c!"UP", art c!"UP" true false [req c!"U1" (some c!"x") [] [ref c!"L1" none 7], v2]),
    (c!"LO", art c!"LO" false true [m1, req c!"L2" none [ref c!"U2" (some c!"y") 4, ref c!"U1" none 9] []])],
    clean.relations⟩

end Example

/-- References are added: nothing stays uncovered or derived. -/
example : MoreReferences Example.sparse Example.clean ∧
    (trace Example.sparse).toOption.map (fun tg => (tg.tracedRelations.map (·.uncovered), tg.derived.entries)) =
      some ([[c!"U2"]], [(c!"LO", [c!"L1"]), (c!"UP", [])]) ∧
    (trace Example.clean).toOption.map (fun tg => (tg.tracedRelations.map (·.uncovered), tg.derived.entries)) =
      some ([[]], [(c!"LO", []), (c!"UP", [])]) :=
  ⟨Example.more_of_check (by decide +kernel), by decide +kernel, by decide +kernel⟩

/-- The errors differ, the coverage does not. -/
example : MoreReferences Example.retitled Example.clean ∧ MoreReferences Example.clean Example.retitled ∧
    (trace Example.retitled).toOption.map (fun tg => (tg.tracedRelations.map (·.uncovered), tg.errors.length)) =
      some ([[]], 2) :=
  ⟨Example.more_of_check (by decide +kernel), Example.more_of_check (by decide +kernel), by decide +kernel⟩

end Reqtrace
