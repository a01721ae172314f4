import Verif.Spec.Version
import Verif.Props.Trace2

/-!
# C126: versions of requirements
-/

namespace Reqtrace
open Spec

section
variable {g g' : Graph} {a : ArtefactId} {r : Requirement} {new : RequirementId}

theorem reversioned_covers (s : Requirement) : (reversioned r new s).covers = s.covers := by
  unfold reversioned; split <;> rfl

theorem reversioned_depends (s : Requirement) : (reversioned r new s).depends = s.depends := by
  unfold reversioned; split <;> rfl

theorem Spec.Reversioned.id (hv : Reversioned g g' a r new) {b : ArtefactId} {s : Requirement} (hs : Defines g b s) :
    (reversioned r new s).id = if s.id = r.id then new else s.id := by
  unfold reversioned
  by_cases h : s = r
  · rw [if_pos h, if_pos (by rw [h])]
  · rw [if_neg h, if_neg (fun he => h (hv.only b s hs he))]

theorem Spec.Reversioned.id_inj (hv : Reversioned g g' a r new) {b c : ArtefactId} {s t : Requirement}
    (hs : Defines g b s) (ht : Defines g c t) :
    (reversioned r new s).id = (reversioned r new t).id ↔ s.id = t.id := by
  rw [hv.id hs, hv.id ht]
  by_cases h1 : s.id = r.id <;> by_cases h2 : t.id = r.id
  · simp [h1, h2]
  · rw [if_pos h1, if_neg h2]
    exact ⟨fun h => absurd h.symm (hv.fresh c t ht).1, fun h => absurd (h.symm.trans h1) h2⟩
  · rw [if_neg h1, if_pos h2]
    exact ⟨fun h => absurd h (hv.fresh b s hs).1, fun h => absurd (h.trans h2) h1⟩
  · rw [if_neg h1, if_neg h2]

theorem Spec.Reversioned.owns (hv : Reversioned g g' a r new) (b : ArtefactId) (s' : Requirement) :
    Owns g' b s' ↔ ∃ s, Owns g b s ∧ s' = reversioned r new s := by
  constructor
  · rintro ⟨hd, hmin⟩
    obtain ⟨s, hs, rfl⟩ := (hv.defines b s').1 hd
    refine ⟨s, ⟨hs, fun c t hlt ht he => ?_⟩, rfl⟩
    exact hmin c _ hlt ((hv.defines c _).2 ⟨t, ht, rfl⟩) ((hv.id_inj ht hs).2 he)
  · rintro ⟨s, ⟨hs, hmin⟩, rfl⟩
    refine ⟨(hv.defines b _).2 ⟨s, hs, rfl⟩, fun c t' hlt ht' he => ?_⟩
    obtain ⟨t, ht, rfl⟩ := (hv.defines c t').1 ht'
    exact hmin c t hlt ht ((hv.id_inj ht hs).1 he)

/-- Exactly the references that do not name the old id still establish coverage. -/
theorem Spec.Reversioned.establishes (hv : Reversioned g g' a r new) (rel : Relation) (b : ArtefactId)
    (u' l' : Requirement) (ref : Reference) (d : CoverageDirection) :
    Establishes g' rel b u' l' ref d ↔ ∃ u l, Establishes g rel b u l ref d ∧ ref.id ≠ r.id ∧
      u' = reversioned r new u ∧ l' = reversioned r new l := by
  constructor
  · intro h
    cases h with
    | down h1 h2 h3 h4 h5 =>
      obtain ⟨u, hu, rfl⟩ := (hv.defines _ _).1 h1
      obtain ⟨l, hl, rfl⟩ := (hv.owns _ _).1 h3
      rw [reversioned_depends] at h4
      rw [hv.id hl.1] at h5
      by_cases he : l.id = r.id
      · rw [if_pos he] at h5
        exact absurd h5 ((hv.fresh _ u hu).2.2 ref h4)
      · rw [if_neg he] at h5
        exact ⟨u, l, .down hu h2 hl h4 h5, fun h => he (h5.symm.trans h), rfl, rfl⟩
    | up h1 h2 h3 h4 h5 =>
      obtain ⟨u, hu, rfl⟩ := (hv.defines _ _).1 h1
      obtain ⟨l, hl, rfl⟩ := (hv.owns _ _).1 h3
      rw [reversioned_covers] at h4
      rw [hv.id hu] at h5
      by_cases he : u.id = r.id
      · rw [if_pos he] at h5
        exact absurd h5 ((hv.fresh _ l hl.1).2.1 ref h4)
      · rw [if_neg he] at h5
        exact ⟨u, l, .up hu h2 hl h4 h5, fun h => he (h5.symm.trans h), rfl, rfl⟩
  · rintro ⟨u, l, h, hne, rfl, rfl⟩
    cases h with
    | down h1 h2 h3 h4 h5 =>
      refine .down ((hv.defines _ _).2 ⟨u, h1, rfl⟩) h2 ((hv.owns _ _).2 ⟨l, h3, rfl⟩) ?_ ?_
      · rw [reversioned_depends]; exact h4
      · rw [hv.id h3.1, if_neg (fun h => hne (h5.trans h))]; exact h5
    | up h1 h2 h3 h4 h5 =>
      refine .up ((hv.defines _ _).2 ⟨u, h1, rfl⟩) h2 ((hv.owns _ _).2 ⟨l, h3, rfl⟩) ?_ ?_
      · rw [reversioned_covers]; exact h4
      · rw [hv.id h1, if_neg (fun h => hne (h5.trans h))]; exact h5

theorem Spec.Establishes.defines {g : Graph} {rel : Relation} {b : ArtefactId} {u l : Requirement} {ref : Reference}
    {d : CoverageDirection} (h : Establishes g rel b u l ref d) : Defines g rel.upper u ∧ Owns g b l := by
  cases h with
  | down h1 h2 h3 h4 h5 => exact ⟨h1, h3⟩
  | up h1 h2 h3 h4 h5 => exact ⟨h1, h3⟩

theorem Spec.Establishes.named {g : Graph} {rel : Relation} {b : ArtefactId} {u l : Requirement} {ref : Reference}
    {d : CoverageDirection} (h : Establishes g rel b u l ref d) :
    Spec.named ⟨u.id, l.id, ref.location, d⟩ = ref.id := by
  cases h with
  | down h1 h2 h3 h4 h5 => exact h5.symm
  | up h1 h2 h3 h4 h5 => exact h5.symm

theorem Spec.Reversioned.traceable (hk' : Keyed g') (hv : Reversioned g g' a r new)
    (h : Traceable g) : Traceable g' := by
  intro rel hrel
  rw [hv.relations] at hrel
  obtain ⟨art, ha, hl⟩ := h rel hrel
  have hs := hv.artefacts rel.upper
  rw [ha] at hs
  obtain ⟨art', ha'⟩ := Option.isSome_iff_exists.1 hs
  refine ⟨art', ha', fun hne b hb => ?_⟩
  rw [hv.artefacts b]
  refine hl (fun h0 => ?_) b hb
  cases hv' : art'.requirements.values with
  | nil => exact hne hv'
  | cons s' ss =>
    obtain ⟨k, hget⟩ := (BMap.mem_values_iff _ _).1
      (show s' ∈ art'.requirements.values by rw [hv']; exact List.mem_cons_self)
    obtain ⟨s, ⟨art2, ha2, hs⟩, _⟩ := (hv.defines rel.upper s').1
      ⟨art', ha', by rw [hk'.requirement _ _ ha' _ _ hget]; exact hget⟩
    rw [ha] at ha2; cases ha2
    have := (BMap.mem_values_iff _ _).2 ⟨_, hs⟩
    rw [h0] at this; cases this

/-- No requirement has the old id any more. -/
theorem Spec.Reversioned.gone (hv : Reversioned g g' a r new) {b : ArtefactId} {s' : Requirement}
    (h : Defines g' b s') : s'.id ≠ r.id := by
  obtain ⟨s, hs, rfl⟩ := (hv.defines b s').1 h
  rw [hv.id hs]
  split
  · exact (hv.fresh a r hv.defined).1.symm
  · assumption

/-- **C126** Giving a requirement a new id breaks existing coverage, and nothing else: of all coverages exactly those
that come from a reference to the old id are gone; a requirement is uncovered exactly if it had no others; and every
reference to the old id is reported. -/
theorem C126_version (hk : Keyed g) (hk' : Keyed g') (hv : Reversioned g g' a r new) {tg : TracedGraph}
    (h : trace g = .ok tg) : ∃ tg', trace g' = .ok tg' ∧
      (∀ (i : Nat) (tr tr' : TracedRelation), tg.tracedRelations[i]? = some tr → tg'.tracedRelations[i]? = some tr' →
        (∀ c', c' ∈ tr'.covered ↔
          ∃ c ∈ tr.covered, named c ≠ r.id ∧ c' = reversionedCoverage r.id new c) ∧
        ∀ s, Defines g tr.relation.upper s →
          ((reversioned r new s).id ∈ tr'.uncovered ↔ ∀ c ∈ tr.covered, c.upper = s.id → named c = r.id)) ∧
      ∀ b s, Owns g b s →
        ((∃ ref ∈ s.covers, ref.id = r.id) ↔
          ∃ l, .coversUnknownRequirement (reversioned r new s) r.id l ∈ tg'.errors) ∧
        ((∃ ref ∈ s.depends, ref.id = r.id) ↔
          ∃ l, .dependOnUnknownRequirement (reversioned r new s) r.id l ∈ tg'.errors) := by
  have h' : trace g' = .ok (traced g') :=
    (trace_ok_iff hk' _).2 ⟨hv.traceable hk' ((trace_ok_iff hk tg).1 h).1, rfl⟩
  have hcov : ∀ (i : Nat) (tr tr' : TracedRelation), tg.tracedRelations[i]? = some tr →
      (traced g').tracedRelations[i]? = some tr' → ∀ c', c' ∈ tr'.covered ↔
          ∃ c ∈ tr.covered, named c ≠ r.id ∧ c' = reversionedCoverage r.id new c := by
    intro i tr tr' hi hi' c'
    rw [C01_coverage_exact hk' h' hi' c']
    constructor
    · rintro ⟨rel, b, u', l', ref, hrel, hest, hc⟩
      obtain ⟨u, l, hest0, hne, rfl, rfl⟩ := (hv.establishes _ _ _ _ _ _).1 hest
      refine ⟨⟨u.id, l.id, ref.location, c'.direction⟩, (C01_coverage_exact hk h hi _).2
        ⟨rel, b, u, l, ref, by rw [← hv.relations]; exact hrel, hest0, rfl⟩, ?_, ?_⟩
      · rw [hest0.named]; exact hne
      · rw [hc]
        show _ = Coverage.mk _ _ _ _
        rw [hv.id hest0.defines.1, hv.id hest0.defines.2.1]
    · rintro ⟨c, hc, hne, rfl⟩
      obtain ⟨rel, b, u, l, ref, hrel, hest, he⟩ := (C01_coverage_exact hk h hi c).1 hc
      rw [he, hest.named] at hne
      refine ⟨rel, b, _, _, ref, by rw [hv.relations]; exact hrel,
        (hv.establishes _ _ _ _ _ _).2 ⟨u, l, hest, hne, rfl, rfl⟩, ?_⟩
      rw [hv.id hest.defines.1, hv.id hest.defines.2.1]
      rw [he]
      rfl
  refine ⟨traced g', h', fun i tr tr' hi hi' => ⟨hcov i tr tr' hi hi', fun s hs => ?_⟩, fun b s hs => ⟨?_, ?_⟩⟩
  · have hrel := (C01_coverage_list hk h hi).1
    have hrel' := (C01_coverage_list hk' h' hi').1
    rw [hv.relations, hrel] at hrel'
    have hre : tr.relation = tr'.relation := Option.some.inj hrel'
    obtain ⟨art', ha', _, hunc⟩ := C02_uncovered_complement hk' h' (List.mem_of_getElem? hi')
    rw [hunc]
    have hget : ∃ x, art'.requirements.get (reversioned r new s).id = some x := by
      obtain ⟨art2, ha2, hx⟩ := (hv.defines tr.relation.upper _).2 ⟨s, hs, rfl⟩
      rw [hre, ha'] at ha2; cases ha2
      exact ⟨_, hx⟩
    constructor
    · rintro ⟨_, hall⟩ c hc hcu
      refine Decidable.byContradiction fun hne => ?_
      refine hall _ ((hcov i tr tr' hi hi' _).2 ⟨c, hc, hne, rfl⟩) ?_
      show (if c.upper = r.id then new else c.upper) = _
      rw [hv.id hs, hcu]
    · intro hall
      refine ⟨hget, fun c' hc' he => ?_⟩
      obtain ⟨c, hc, hne, rfl⟩ := (hcov i tr tr' hi hi' c').1 hc'
      refine hne (hall c hc ?_)
      obtain ⟨rel, b, u, l, ref, hrel2, hest, hce⟩ := (C01_coverage_exact hk h hi c).1 hc
      have hu : c.upper = u.id := by rw [hce]
      rw [hu]
      refine (hv.id_inj hest.defines.1 hs).1 ?_
      rw [← he, hv.id hest.defines.1]
      show _ = (if c.upper = r.id then new else c.upper)
      rw [hu]
  · have hown : Owns g' b (reversioned r new s) := (hv.owns _ _).2 ⟨s, hs, rfl⟩
    simp only [C04_covers_unknown hk' h']
    rw [reversioned_covers]
    constructor
    · rintro ⟨ref, hm, hid⟩
      cases hf : s.covers.find? (fun x => x.id == r.id) with
      | none => exact absurd hid (by simpa using List.find?_eq_none.1 hf ref hm)
      | some ref0 =>
        obtain ⟨pre, post, e1, e2, e3⟩ := find_first.1 hf
        refine ⟨ref0.location, ⟨b, hown⟩, ⟨pre, ref0, post, e1, by simpa using e2, rfl, by simpa using e3⟩, ?_⟩
        rintro tr htr c hc ⟨hd, hcu, _⟩
        obtain ⟨i, hi⟩ := List.getElem?_of_mem htr
        obtain ⟨rel, b', u, l, ref', _, hest, hce⟩ := (C01_coverage_exact hk' h' hi c).1 hc
        rw [hce] at hcu
        exact hv.gone hest.defines.1 hcu
    · rintro ⟨l, _, ⟨pre, ref, post, e1, e2, _, _⟩, _⟩
      exact ⟨ref, by rw [e1]; simp, e2⟩
  · have hown : Owns g' b (reversioned r new s) := (hv.owns _ _).2 ⟨s, hs, rfl⟩
    simp only [C05_depends_unknown hk' h']
    rw [reversioned_depends]
    constructor
    · rintro ⟨ref, hm, hid⟩
      cases hf : s.depends.find? (fun x => x.id == r.id) with
      | none => exact absurd hid (by simpa using List.find?_eq_none.1 hf ref hm)
      | some ref0 =>
        obtain ⟨pre, post, e1, e2, e3⟩ := find_first.1 hf
        refine ⟨ref0.location, ⟨b, hown⟩, ⟨pre, ref0, post, e1, by simpa using e2, rfl, by simpa using e3⟩, ?_⟩
        rintro tr htr c hc ⟨hd, _, hcl⟩
        obtain ⟨i, hi⟩ := List.getElem?_of_mem htr
        obtain ⟨rel, b', u, l, ref', _, hest, hce⟩ := (C01_coverage_exact hk' h' hi c).1 hc
        rw [hce] at hcl
        exact hv.gone hest.defines.2.1 hcl
    · rintro ⟨l, _, ⟨pre, ref, post, e1, e2, _, _⟩, _⟩
      exact ⟨ref, by rw [e1]; simp, e2⟩

end

namespace Example

/-- All requirements with their artefacts. -/
def pairs (g : Graph) : List (ArtefactId × Requirement) :=
  g.artefacts.entries.flatMap fun e => e.2.requirements.values.map fun r => (e.1, r)

theorem mem_pairs {g : Graph} (hk : Keyed g) (a : ArtefactId) (r : Requirement) : (a, r) ∈ pairs g ↔ Defines g a r := by
  unfold pairs Defines
  simp only [List.mem_flatMap, List.mem_map, Prod.mk.injEq]
  constructor
  · rintro ⟨⟨b, art⟩, he, r0, hr, rfl, rfl⟩
    have hg := (BMap.get_eq_some_iff _ _ _).2 he
    obtain ⟨k, hr'⟩ := (BMap.mem_values_iff _ _).1 hr
    exact ⟨art, hg, by rw [hk.requirement _ _ hg _ _ hr']; exact hr'⟩
  · rintro ⟨art, ha, hr⟩
    exact ⟨(a, art), (BMap.get_eq_some_iff _ _ _).1 ha, r, (BMap.mem_values_iff _ _).2 ⟨_, hr⟩, rfl, rfl⟩

/-- `clean` with the requirement `U1` in its second version. -/
def versioned : Graph :=
  ⟨.ofList [(c!"UP", art c!"UP" true false [reversioned v1 c!"U1_v2" v1, v2]), (c!"LO", art c!"LO" false true [m1, m2])],
    [⟨c!"UP", [c!"LO"]⟩]⟩

theorem versioned_keyed : Keyed versioned := keyed_of_check (by decide +kernel)

theorem versioned_reversioned : Reversioned clean versioned c!"UP" v1 c!"U1_v2" where
  relations := rfl
  defined := (mem_pairs clean_keyed _ _).1 (by decide +kernel)
  only := fun b s hs => by
    have : ∀ e ∈ pairs clean, e.2.id = v1.id → e.2 = v1 := by decide +kernel
    exact this (b, s) ((mem_pairs clean_keyed _ _).2 hs)
  fresh := fun b s hs => by
    have : ∀ e ∈ pairs clean, e.2.id ≠ c!"U1_v2" ∧ (∀ ref ∈ e.2.covers, ref.id ≠ c!"U1_v2") ∧
      ∀ ref ∈ e.2.depends, ref.id ≠ c!"U1_v2" := by decide +kernel
    exact this (b, s) ((mem_pairs clean_keyed _ _).2 hs)
  artefacts := fun b => by
    have h : versioned.artefacts.keys = clean.artefacts.keys := by decide +kernel
    rw [Bool.eq_iff_iff, ← BMap.mem_keys_iff_isSome, ← BMap.mem_keys_iff_isSome, h]
  defines := fun b s' => by
    have h1 : ∀ e ∈ pairs versioned, ∃ e0 ∈ pairs clean, e0.1 = e.1 ∧ e.2 = reversioned v1 c!"U1_v2" e0.2 := by
      decide +kernel
    have h2 : ∀ e0 ∈ pairs clean, (e0.1, reversioned v1 c!"U1_v2" e0.2) ∈ pairs versioned := by decide +kernel
    constructor
    · intro h
      obtain ⟨⟨b0, s⟩, hm, rfl, he⟩ := h1 (b, s') ((mem_pairs versioned_keyed _ _).2 h)
      exact ⟨s, (mem_pairs clean_keyed _ _).1 hm, he⟩
    · rintro ⟨s, hs, rfl⟩
      exact (mem_pairs versioned_keyed _ _).1 (h2 (b, s) ((mem_pairs clean_keyed _ _).2 hs))

end Example

/-- In the clean project, the second version of `U1` keeps the coverage by its own reference to `L1`, loses that by
`L2`, and the reference of `L2` is reported. -/
theorem C126_example : Reversioned Example.clean Example.versioned c!"UP" Example.v1 c!"U1_v2" ∧
    (trace Example.versioned).toOption.map (fun tg => (tg.tracedRelations.map (fun tr => (tr.covered, tr.uncovered)),
      tg.errors)) =
      some ([([⟨c!"U1_v2", c!"L1", Example.loc 1, .downwards⟩, ⟨c!"U2", c!"L2", Example.loc 4, .upwards⟩], [])],
        [.coversUnknownRequirement Example.m2 c!"U1" (Example.loc 5)]) :=
  ⟨Example.versioned_reversioned, by decide +kernel⟩

end Reqtrace
