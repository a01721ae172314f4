import Verif.Props.Rerun
import Verif.Props.Trace2

/-!
# C90: an artefact that no relation names
-/

namespace Reqtrace

open Spec

section
variable {g g' : Graph} {x : ArtefactId} (hk : Keyed g) (hk' : Keyed g') (ha : AddsArtefact g g' x)
include hk hk' ha

omit hk hk' in
theorem Spec.AddsArtefact.defines {a : ArtefactId} (h : a ≠ x) (r : Requirement) : Defines g' a r ↔ Defines g a r := by
  unfold Defines
  rw [ha.others a h]

omit hk hk' in
theorem Spec.AddsArtefact.not_defined {r : Requirement} : ¬ Defines g x r := by
  rintro ⟨art, h, _⟩
  rw [ha.new] at h; cases h

omit hk hk' in
theorem Spec.AddsArtefact.owns_other {a : ArtefactId} (h : a ≠ x) (r : Requirement) : Owns g' a r ↔ Owns g a r := by
  unfold Owns
  rw [ha.defines h]
  refine and_congr_right fun hd => ?_
  constructor
  · intro h1 b s hlt hs
    refine h1 b s hlt ((ha.defines ?_ s).2 hs)
    rintro rfl
    exact ha.not_defined hs
  · intro h1 b s hlt hs
    by_cases hb : b = x
    · subst hb
      exact fun e => ha.fresh s hs a r hd e.symm
    · exact h1 b s hlt ((ha.defines hb s).1 hs)

omit hk hk' in
theorem Spec.AddsArtefact.owns_new (r : Requirement) : Owns g' x r ↔ Defines g' x r := by
  constructor
  · exact fun h => h.1
  · intro h
    refine ⟨h, fun b s hlt hs => ?_⟩
    have hb : b ≠ x := by rintro rfl; exact lt_irrefl_cmp hlt
    exact ha.fresh r h b s ((ha.defines hb s).1 hs)

theorem Spec.AddsArtefact.owned {a : ArtefactId} (h : a ≠ x) : owned g' a = owned g a := by
  have hm : ∀ r, r ∈ Spec.owned g' a ↔ r ∈ Spec.owned g a := by
    intro r
    rw [mem_owned hk', mem_owned hk, ha.owns_other h]
  unfold Spec.owned at *
  rw [ha.others a h] at *
  cases hart : g.artefacts.get a with
  | none => rfl
  | some art =>
    rw [hart] at hm
    simp only [List.mem_filter] at hm ⊢
    apply List.filter_congr
    intro r hr
    have := hm r
    simp only [hr, true_and] at this
    exact Bool.eq_iff_iff.2 this

theorem Spec.AddsArtefact.events {rel : Relation} (hr : rel ∈ g.relations) :
    relEvents g' rel = relEvents g rel ∧ tracedRelation g' rel = tracedRelation g rel ∧
      relationErrors g' rel = relationErrors g rel := by
  obtain ⟨hu, hl⟩ := ha.unrelated rel hr
  have hne : ∀ a ∈ rel.lower, a ≠ x := fun a h e => hl (e ▸ h)
  have h1 : ∀ u, reqEvents g' rel u = reqEvents g rel u := by
    intro u
    unfold reqEvents downEvents upEvents
    congr 1
    · exact flatMap_congr' fun ref _ => flatMap_congr' fun a h => by rw [ha.owned hk hk' (hne a h)]
    · exact flatMap_congr' fun a h => by rw [ha.owned hk hk' (hne a h)]
  have h2 : upperReqs g' rel = upperReqs g rel := by unfold upperReqs; rw [ha.others _ hu]
  have h3 : relEvents g' rel = relEvents g rel := by
    unfold relEvents
    rw [h2, funext h1]
  refine ⟨h3, ?_, ?_⟩
  · unfold tracedRelation uncovered
    rw [h3, h2, funext h1]
  · unfold relationErrors
    rw [h3]
    congr 1
    refine flatMap_congr' fun e he => ?_
    have hlow : e.lowerArt ∈ rel.lower := by
      have := (mem_relEvents hk rel e).1 he
      generalize e.lowerArt = a, e.upper = b, e.lower = c, e.ref = d, e.dir = f at this
      cases this <;> assumption
    unfold titleErrors needsTitle
    rw [ha.others _ hu, ha.others _ (hne _ hlow)]

theorem Spec.AddsArtefact.allEvents : allEvents g' = allEvents g := by
  unfold Spec.allEvents
  rw [ha.relations]
  exact flatMap_congr' fun rel hr => (ha.events hk hk' hr).1

/-- **C90** An artefact that no relation names, and whose ids are its own, changes nothing about the others: the result
along every relation and the derived requirements stay the same, all errors stay, and the only new errors are about its
own references. -/
theorem C90_unrelated {tg : TracedGraph} (h : trace g = .ok tg) : ∃ tg', trace g' = .ok tg' ∧
    tg'.tracedRelations = tg.tracedRelations ∧
    (∀ a, a ≠ x → tg'.derived.get a = tg.derived.get a) ∧
    ∀ e, e ∈ tg'.errors ↔ e ∈ tg.errors ∨ Isolated g' x e := by
  obtain ⟨htr, rfl⟩ := (trace_ok_iff hk tg).1 h
  have htr' : Traceable g' := by
    intro rel hrel
    rw [ha.relations] at hrel
    obtain ⟨art, h1, h2⟩ := htr rel hrel
    obtain ⟨hu, hl⟩ := ha.unrelated rel hrel
    refine ⟨art, by rw [ha.others _ hu]; exact h1, fun hne a haa => ?_⟩
    rw [ha.others a (fun e => hl (e ▸ haa))]
    exact h2 hne a haa
  refine ⟨traced g', (trace_ok_iff hk' _).2 ⟨htr', rfl⟩, ?_, ?_, ?_⟩
  · show g'.relations.map (tracedRelation g') = g.relations.map (tracedRelation g)
    rw [ha.relations]
    exact List.map_congr_left fun rel hr => (ha.events hk hk' hr).2.1
  · intro a hax
    show (derivedMap g').get a = (derivedMap g).get a
    unfold derivedMap
    rw [get_ofList_map, get_ofList_map, ha.others a hax]
    cases g.artefacts.get a with
    | none => rfl
    | some art =>
      simp only [Option.map_some, derived]
      rw [ha.owned hk hk' hax, ha.allEvents hk hk']
  · intro e
    have hrels : (∃ rel ∈ g'.relations, (∃ ev ∈ relEvents g' rel, e ∈ titleErrors g' rel ev) ∨
        (relEvents g' rel = [] ∧ e = .unusedRelation rel)) ↔
        (∃ rel ∈ g.relations, (∃ ev ∈ relEvents g rel, e ∈ titleErrors g rel ev) ∨
        (relEvents g rel = [] ∧ e = .unusedRelation rel)) := by
      rw [ha.relations]
      apply exists_congr
      intro rel
      refine and_congr_right fun hr => ?_
      rw [← mem_relationErrors, ← mem_relationErrors, (ha.events hk hk' hr).2.2]
    have hev : ∀ ev ∈ Spec.allEvents g, ∀ r, Defines g' x r → ev.upper.id ≠ r.id ∧ ev.lower.id ≠ r.id := by
      intro ev hev r hr
      obtain ⟨rel, hrel, he⟩ := (mem_allEvents hk ev).1 hev
      generalize ev.lowerArt = a, ev.upper = b, ev.lower = c, ev.ref = d, ev.dir = f at he
      cases he with
      | down h1 _ h3 => exact ⟨ha.fresh r hr _ _ h1, ha.fresh r hr _ _ h3.1⟩
      | up h1 _ h3 => exact ⟨ha.fresh r hr _ _ h1, ha.fresh r hr _ _ h3.1⟩
    rw [mem_errors hk', mem_errors hk, hrels, ha.allEvents hk hk']
    constructor
    · rintro (⟨f, s, rfl, a, b, h1, h2, h3, h4⟩ | h | ⟨r, up, ref, rfl, ⟨a, h1⟩, h2, h3⟩ | ⟨r, up, ref, rfl, ⟨a, h1⟩, h2, h3⟩)
      · by_cases hax : a = x
        · subst hax
          have hb : b ≠ a := by rintro rfl; exact lt_irrefl_cmp h4
          exact absurd h3 (ha.fresh f h1.1 b s ((ha.defines hb s).1 h2))
        · by_cases hbx : b = x
          · subst hbx
            exact absurd h3.symm (ha.fresh s h2 a f ((ha.defines hax f).1 h1.1))
          · exact .inl (.inl ⟨f, s, rfl, a, b, (ha.owns_other hax f).1 h1, (ha.defines hbx s).1 h2, h3, h4⟩)
      · exact .inl (.inr (.inl h))
      · by_cases hax : a = x
        · subst hax
          obtain ⟨pre, post, e1, e2, e3⟩ := find_first.1 h2
          exact .inr (.covers h1.1 ⟨pre, ref, post, e1, by simpa using e2, rfl, by simpa using e3⟩)
        · exact .inl (.inr (.inr (.inl ⟨r, up, ref, rfl, ⟨a, (ha.owns_other hax r).1 h1⟩, h2, h3⟩)))
      · by_cases hax : a = x
        · subst hax
          obtain ⟨pre, post, e1, e2, e3⟩ := find_first.1 h2
          exact .inr (.depends h1.1 ⟨pre, ref, post, e1, by simpa using e2, rfl, by simpa using e3⟩)
        · exact .inl (.inr (.inr (.inr ⟨r, up, ref, rfl, ⟨a, (ha.owns_other hax r).1 h1⟩, h2, h3⟩)))
    · have hne : ∀ {a r}, Owns g a r → a ≠ x := by
        rintro a r h rfl
        exact ha.not_defined h.1
      rintro ((⟨f, s, rfl, a, b, h1, h2, h3, h4⟩ | h | ⟨r, up, ref, rfl, ⟨a, h1⟩, h2, h3⟩ |
        ⟨r, up, ref, rfl, ⟨a, h1⟩, h2, h3⟩) | h)
      · have hbx : b ≠ x := by rintro rfl; exact ha.not_defined h2
        exact .inl ⟨f, s, rfl, a, b, (ha.owns_other (hne h1) f).2 h1, (ha.defines hbx s).2 h2, h3, h4⟩
      · exact .inr (.inl h)
      · exact .inr (.inr (.inl ⟨r, up, ref, rfl, ⟨a, (ha.owns_other (hne h1) r).2 h1⟩, h2, h3⟩))
      · exact .inr (.inr (.inr ⟨r, up, ref, rfl, ⟨a, (ha.owns_other (hne h1) r).2 h1⟩, h2, h3⟩))
      · cases h with
        | covers h1 h2 =>
          obtain ⟨pre, ref, post, e1, e2, rfl, e3⟩ := h2
          exact .inr (.inr (.inl ⟨_, _, ref, rfl, ⟨x, (ha.owns_new _).2 h1⟩,
            find_first.2 ⟨pre, post, e1, by simpa using e2, by simpa using e3⟩, fun ev hv h => (hev ev hv _ h1).2 h.2.2⟩))
        | depends h1 h2 =>
          obtain ⟨pre, ref, post, e1, e2, rfl, e3⟩ := h2
          exact .inr (.inr (.inr ⟨_, _, ref, rfl, ⟨x, (ha.owns_new _).2 h1⟩,
            find_first.2 ⟨pre, post, e1, by simpa using e2, by simpa using e3⟩, fun ev hv h => (hev ev hv _ h1).1 h.2.1⟩))

end

/-- **C90** In terms of the configuration: one more entry, with an id that is not yet configured, and relations as before. -/
theorem C90_config {env : Env} {w : World} {config config' : Config} {base : Path} {g g' : Graph} {pre post : List ArtefactConfig}
    {ac : ArtefactConfig} (hc : config.artefacts = pre ++ post) (hc' : config'.artefacts = pre ++ ac :: post)
    (hr : config'.relations = config.relations) (hn : ¬ Configured config ac.id)
    (h : IsInput env w config base g) (h' : IsInput env w config' base g')
    (hf : ∀ r, Defines g' ac.id r → ∀ a s, Defines g a s → s.id ≠ r.id) : AddsArtefact g g' ac.id := by
  have hid : ∀ b ∈ pre ++ post, b.id ≠ ac.id := fun b hb e => hn ⟨b, by rw [hc]; exact hb, e⟩
  have hlast : ∀ b, b.id ≠ ac.id → (LastEntry config' b ↔ LastEntry config b) := by
    intro b hb
    unfold LastEntry
    rw [hc, hc']
    constructor
    · rintro ⟨p, q, e, hq⟩
      rcases List.append_eq_append_iff.1 e with ⟨t, e1, e2⟩ | ⟨t, e1, e2⟩
      · cases t with
        | nil => simp only [List.nil_append, List.cons.injEq] at e2; exact absurd (congrArg (·.id) e2.1).symm hb
        | cons y t =>
          simp only [List.cons_append, List.cons.injEq] at e2
          obtain ⟨rfl, rfl⟩ := e2
          refine ⟨pre ++ t, q, by simp, hq⟩
      · cases t with
        | nil => simp only [List.nil_append, List.cons.injEq] at e2; exact absurd (congrArg (·.id) e2.1) hb
        | cons y t =>
          simp only [List.cons_append, List.cons.injEq] at e2
          obtain ⟨rfl, rfl⟩ := e2
          refine ⟨p, t ++ post, by rw [e1]; simp, fun c hc => hq c ?_⟩
          simp only [List.mem_append, List.mem_cons] at hc ⊢
          rcases hc with hc | hc
          · exact .inl hc
          · exact .inr (.inr hc)
    · rintro ⟨p, q, e, hq⟩
      rcases List.append_eq_append_iff.1 e with ⟨t, e1, e2⟩ | ⟨t, e1, e2⟩
      · exact ⟨pre ++ ac :: t, q, by rw [e2]; simp, hq⟩
      · cases t with
        | nil =>
          simp only [List.nil_append] at e2
          refine ⟨pre ++ [ac], q, by rw [← e2]; simp, hq⟩
        | cons y t =>
          simp only [List.cons_append, List.cons.injEq] at e2
          obtain ⟨rfl, rfl⟩ := e2
          refine ⟨p, t ++ ac :: post, by rw [e1]; simp, fun c hc => ?_⟩
          simp only [List.mem_append, List.mem_cons] at hc
          rcases hc with hc | rfl | hc
          · exact hq c (List.mem_append_left _ hc)
          · exact hb.symm
          · exact hq c (List.mem_append_right _ hc)
  have hroot : ∀ a, IsRoot config' a ↔ IsRoot config a := by intro a; unfold IsRoot; rw [hr]
  refine ⟨by rw [h'.relations, h.relations, hr], fun a ha => ?_, ?_, ?_, hf⟩
  · apply Option.ext
    intro art
    rw [h'.artefacts, h.artefacts]
    apply exists_congr
    intro b
    constructor
    · rintro ⟨h1, rfl, r, e, u, h2⟩
      exact ⟨(hlast b ha).1 h1, rfl, r, e, u, (isArtefact_root (hroot b.id)).1 h2⟩
    · rintro ⟨h1, rfl, r, e, u, h2⟩
      exact ⟨(hlast b ha).2 h1, rfl, r, e, u, (isArtefact_root (hroot b.id)).2 h2⟩
  · cases hx : g.artefacts.get ac.id with
    | none => rfl
    | some art =>
      obtain ⟨b, ⟨p, q, h1, _⟩, h2, _⟩ := (h.artefacts _ _).1 hx
      exact absurd ⟨b, by rw [h1]; simp, h2⟩ hn
  · intro rel hrel
    rw [h.relations] at hrel
    obtain ⟨h1, h2⟩ := h.configured rel hrel
    exact ⟨fun e => hn (e ▸ h1), fun e => hn (h2 _ e)⟩

namespace UnrelatedExample

open Example

def z1 := req c!"Z_1" none [ref c!"U1" (some c!"one") 7, ref c!"U1" none 8] [ref c!"REQ_NONE" none 9]

/-- `clean` with an artefact `Z` that no relation names; its requirement refers to one of `clean` and to one that does not exist. -/
def more : Graph := { clean with artefacts := clean.artefacts.insert c!"Z" (art c!"Z" false false [z1]) }

theorem more_keyed : Keyed more := keyed_of_check (by decide +kernel)

theorem adds : AddsArtefact clean more c!"Z" where
  relations := rfl
  others a ha := by
    show (clean.artefacts.insert c!"Z" _).get a = _
    rw [BMap.get_insert, if_neg ha]
  new := by decide +kernel
  unrelated := by decide +kernel
  fresh := by
    rintro r ⟨art, h1, h2⟩ a s ⟨b, h3, h4⟩
    have e : more.artefacts.get c!"Z" = some (Example.art c!"Z" false false [z1]) := by decide +kernel
    rw [h1] at e; cases e
    have hr := (BMap.get_eq_some_iff _ _ _).1 h2
    have : r = z1 := by
      have hall : ∀ e ∈ (Example.art c!"Z" false false [z1]).requirements.entries, e.2 = z1 := by decide +kernel
      exact hall _ hr
    subst this
    have hall : ∀ e ∈ clean.artefacts.entries, ∀ q ∈ e.2.requirements.entries, q.2.id ≠ z1.id := by decide +kernel
    exact hall _ ((BMap.get_eq_some_iff _ _ _).1 h3) _ ((BMap.get_eq_some_iff _ _ _).1 h4)

/-- The coverages and what is derived stay; the two new errors are those of `Z`. -/
example : ∃ tg', trace more = .ok tg' ∧
    tg'.tracedRelations = [⟨⟨c!"UP", [c!"LO"]⟩, [⟨c!"U1", c!"L1", loc 1, .downwards⟩, ⟨c!"U1", c!"L2", loc 5, .upwards⟩,
        ⟨c!"U2", c!"L2", loc 4, .upwards⟩], []⟩] ∧
    (∀ e, e ∈ tg'.errors ↔ Isolated more c!"Z" e) ∧
    tg'.errors = [.coversUnknownRequirement z1 c!"U1" (loc 7), .dependOnUnknownRequirement z1 c!"REQ_NONE" (loc 9)] := by
  obtain ⟨tg', h1, h2, _, h4⟩ := C90_unrelated clean_keyed more_keyed adds clean_traced
  refine ⟨tg', h1, h2, fun e => by rw [h4]; simp, ?_⟩
  have : (trace more).toOption.map (·.errors) = some
      [.coversUnknownRequirement z1 c!"U1" (loc 7), .dependOnUnknownRequirement z1 c!"REQ_NONE" (loc 9)] := by
    decide +kernel
  rw [h1] at this
  exact Option.some.inj this

end UnrelatedExample

end Reqtrace
