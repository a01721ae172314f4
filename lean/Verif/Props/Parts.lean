import Verif.Spec.Parts
import Verif.Props.Unrelated
import Verif.Props.Jobs

/-!
# C154: parts of a project that have nothing to do with each other
-/

namespace Reqtrace

open Spec
open scoped Classical

namespace Parts

theorem flatMap_filter {α β : Type} {q : α → Bool} {f f' : α → List β} {P : β → Bool} :
    ∀ {l : List α}, (∀ x ∈ l, q x = true → f' x = f x ∧ ∀ y ∈ f x, P y = true) →
      (∀ x ∈ l, q x = false → ∀ y ∈ f x, P y = false) → (l.filter q).flatMap f' = (l.flatMap f).filter P
  | [], _, _ => rfl
  | x :: l, h1, h2 => by
    have ih := flatMap_filter (l := l) (fun y hy => h1 y (List.mem_cons_of_mem _ hy)) (fun y hy => h2 y (List.mem_cons_of_mem _ hy))
    rw [List.flatMap_cons, List.filter_append, ← ih]
    cases hx : q x with
    | true =>
      obtain ⟨e1, e2⟩ := h1 x (by simp) hx
      rw [List.filter_cons_of_pos hx, List.flatMap_cons, e1, List.filter_eq_self.2 e2]
    | false =>
      have : (f x).filter P = [] := by
        rw [List.filter_eq_nil_iff]
        intro y hy
        rw [h2 x (by simp) hx y hy]; simp
      rw [List.filter_cons_of_neg (by simp [hx]), this, List.nil_append]

theorem filterMap_flatMap {α β : Type} (f : α → Option β) (l : List α) : l.filterMap f = l.flatMap fun x => (f x).toList := by
  induction l with
  | nil => rfl
  | cons x l ih => cases h : f x <;> simp [h, ih]

section
variable {part : ArtefactId → Bool} {p g : Graph} (hk : Keyed g) (hk' : Keyed p) (hs : Separates part g) (hp : IsPart part p g)
include hp

theorem get {a : ArtefactId} (h : part a = true) : p.artefacts.get a = g.artefacts.get a := by
  rw [hp.artefacts, if_pos h]

theorem entries : p.artefacts.entries = g.artefacts.entries.filter (fun e => part e.1) := by
  refine BMap.sorted_ext (r := fun a b : ArtefactId × Artefact => compare a.1 b.1 = .lt) (fun a h => lt_irrefl_cmp h)
    (fun a b h1 h2 => lt_irrefl_cmp (Std.TransCmp.lt_trans h1 h2)) p.artefacts.sorted (g.artefacts.sorted.filter _) ?_
  rintro ⟨a, art⟩
  rw [List.mem_filter, ← BMap.get_eq_some_iff, ← BMap.get_eq_some_iff, hp.artefacts]
  cases h : part a <;> simp

theorem defines (a : ArtefactId) (r : Requirement) : Defines p a r ↔ part a = true ∧ Defines g a r := by
  unfold Defines
  rw [hp.artefacts]
  cases h : part a <;> simp

include hs in
theorem owns (a : ArtefactId) (r : Requirement) : Owns p a r ↔ part a = true ∧ Owns g a r := by
  unfold Owns
  rw [defines hp, and_assoc]
  refine and_congr_right fun ha => and_congr_right fun hd => ?_
  constructor
  · intro h b s hlt hb e
    exact h b s hlt ((defines hp b s).2 ⟨by rw [hs.apart b a s r hb hd e]; exact ha, hb⟩) e
  · intro h b s hlt hb
    exact h b s hlt ((defines hp b s).1 hb).2

include hk hk' hs in
theorem owned {a : ArtefactId} (h : part a = true) : Spec.owned p a = Spec.owned g a := by
  have hm : ∀ r, r ∈ Spec.owned p a ↔ r ∈ Spec.owned g a := by
    intro r
    rw [mem_owned hk', mem_owned hk, owns hs hp]
    simp [h]
  unfold Spec.owned at *
  rw [get hp h] at *
  cases hart : g.artefacts.get a with
  | none => rfl
  | some art =>
    rw [hart] at hm
    simp only [List.mem_filter] at hm ⊢
    apply List.filter_congr
    intro r hr
    have := hm r
    simp only [hr, true_and] at this
    exact Bool.eq_iff_iff.2 this

include hk hk' hs in
theorem events {rel : Relation} (hr : rel ∈ g.relations) (hu : part rel.upper = true) :
    relEvents p rel = relEvents g rel ∧ tracedRelation p rel = tracedRelation g rel ∧
      relationErrors p rel = relationErrors g rel := by
  have hl : ∀ a ∈ rel.lower, part a = true := fun a h => by rw [hs.closed rel hr a h]; exact hu
  have h1 : ∀ u, reqEvents p rel u = reqEvents g rel u := by
    intro u
    unfold reqEvents downEvents upEvents
    congr 1
    · exact flatMap_congr' fun ref _ => flatMap_congr' fun a h => by rw [owned hk hk' hs hp (hl a h)]
    · exact flatMap_congr' fun a h => by rw [owned hk hk' hs hp (hl a h)]
  have h2 : upperReqs p rel = upperReqs g rel := by unfold upperReqs; rw [get hp hu]
  have h3 : relEvents p rel = relEvents g rel := by
    unfold relEvents
    rw [h2, funext h1]
  refine ⟨h3, ?_, ?_⟩
  · unfold tracedRelation uncovered
    rw [h3, h2, funext h1]
  · unfold relationErrors
    rw [h3]
    congr 1
    refine flatMap_congr' fun e he => ?_
    have hlow : e.lowerArt ∈ rel.lower := by
      have := (mem_relEvents hk rel e).1 he
      generalize e.lowerArt = a, e.upper = b, e.lower = c, e.ref = d, e.dir = f at this
      cases this <;> assumption
    unfold titleErrors needsTitle
    rw [get hp hu, get hp (hl _ hlow)]

omit hp in
include hk hs in
/-- Where the two ends of an event are. -/
theorem ends {rel : Relation} {e : Event} (hr : rel ∈ g.relations) (he : e ∈ relEvents g rel) :
    ∃ a, part a = part rel.upper ∧ Defines g rel.upper e.upper ∧ Defines g a e.lower := by
  have := (mem_relEvents hk rel e).1 he
  generalize e.lowerArt = a, e.upper = b, e.lower = c, e.ref = d, e.dir = f at this
  cases this with
  | down h1 h2 h3 => exact ⟨_, hs.closed rel hr _ h2, h1, h3.1⟩
  | up h1 h2 h3 => exact ⟨_, hs.closed rel hr _ h2, h1, h3.1⟩

omit hp in
include hs in
theorem inPart {a : ArtefactId} {r : Requirement} (hd : Defines g a r) : InPart part g r.id ↔ part a = true := by
  constructor
  · rintro ⟨b, hb, s, h1, h2⟩
    rw [hs.apart a b r s hd h1 h2.symm]; exact hb
  · intro h; exact ⟨a, h, r, hd, rfl⟩

include hk hk' hs in
theorem mem_allEvents_part (e : Event) : e ∈ allEvents p ↔ e ∈ allEvents g ∧ InPart part g e.lower.id := by
  unfold allEvents
  simp only [List.mem_flatMap, hp.relations, List.mem_filter]
  constructor
  · rintro ⟨rel, ⟨h1, h2⟩, h3⟩
    rw [(events hk hk' hs hp h1 h2).1] at h3
    obtain ⟨a, e1, e2, e3⟩ := ends hk hs h1 h3
    exact ⟨⟨rel, h1, h3⟩, (inPart hs e3).2 (e1.trans h2)⟩
  · rintro ⟨⟨rel, h1, h3⟩, h4⟩
    obtain ⟨a, e1, e2, e3⟩ := ends hk hs h1 h3
    have h2 : part rel.upper = true := by rw [← e1]; exact (inPart hs e3).1 h4
    exact ⟨rel, ⟨h1, h2⟩, by rw [(events hk hk' hs hp h1 h2).1]; exact h3⟩

include hk hs in
theorem owner {a : ArtefactId} {r : Requirement} (hd : Defines g a r) (h : part a = true) : Spec.owner p r.id = Spec.owner g r.id := by
  rw [owner_eq_seen, owner_eq_seen]
  unfold seen
  rw [entries hp]
  have : ∀ l : List (ArtefactId × Artefact), (∀ e ∈ l, e ∈ g.artefacts.entries) →
      (l.filter (fun e => part e.1)).findSome? (fun e => e.2.requirements.get r.id) =
        l.findSome? (fun e => e.2.requirements.get r.id) := by
    intro l
    induction l with
    | nil => intro _; rfl
    | cons e l ih =>
      intro hl
      have ih := ih fun x hx => hl x (by simp [hx])
      cases he : part e.1 with
      | true => rw [List.filter_cons_of_pos (by simp [he]), List.findSome?_cons, List.findSome?_cons, ih]
      | false =>
        rw [List.filter_cons_of_neg (by simp [he]), List.findSome?_cons, ih]
        have : e.2.requirements.get r.id = none := by
          cases hg : e.2.requirements.get r.id with
          | none => rfl
          | some s =>
            have hget := (BMap.get_eq_some_iff _ _ _).2 (hl e (by simp))
            have hid := hk.requirement _ _ hget _ _ hg
            have := hs.apart e.1 a s r ⟨e.2, hget, by rw [hid]; exact hg⟩ hd hid
            rw [he, h] at this
            cases this
        rw [this]
  exact this _ fun _ h => h

end

end Parts

section
variable {part : ArtefactId → Bool} {p g : Graph} (hk : Keyed g) (hk' : Keyed p) (hs : Separates part g) (hp : IsPart part p g)
include hk hk' hs hp

open Parts

omit hk' in
theorem Parts.duplicates : duplicateErrors p = aboutPart part g (duplicateErrors g) := by
  rw [duplicateErrors_eq, duplicateErrors_eq, entries hp]
  refine flatMap_filter ?_ ?_
  all_goals
    rintro ⟨a, art⟩ ha hq
    have hget := (BMap.get_eq_some_iff _ _ _).2 ha
    have about : ∀ y ∈ dupErrorsOf g (a, art), (AboutPart part g y ↔ part a = true) := by
      intro y hy
      obtain ⟨f, s, rfl, b, c, h1, h2, h3, h4⟩ := (mem_duplicateErrors hk y).1 (by
        rw [duplicateErrors_eq]; exact List.mem_flatMap.2 ⟨_, ha, hy⟩)
      unfold dupErrorsOf at hy
      obtain ⟨r, hr, hy⟩ := List.mem_filterMap.1 hy
      obtain ⟨old, ho, e⟩ := Option.map_eq_some_iff.1 hy
      cases e
      obtain ⟨k, hr⟩ := (BMap.mem_values_iff _ _).1 hr
      have hid := hk.requirement _ _ hget _ _ hr
      have hd : Defines g a s := ⟨art, hget, by rw [hid]; exact hr⟩
      show InPart part g f.id ↔ _
      rw [← h3]
      exact inPart hs hd
  · refine ⟨?_, fun y hy => decide_eq_true ((about y hy).2 hq)⟩
    unfold dupErrorsOf
    refine filterMap_congr' fun r hr => ?_
    congr 1
    rw [entries hp]
    obtain ⟨k, hr⟩ := (BMap.mem_values_iff _ _).1 hr
    have hid := hk.requirement _ _ hget _ _ hr
    have hd : Defines g a r := ⟨art, hget, by rw [hid]; exact hr⟩
    have : ∀ l : List (ArtefactId × Artefact), (∀ e ∈ l, e ∈ g.artefacts.entries) →
        (l.filter (fun e => part e.1)).findSome? (fun e => if compare e.1 a = .lt then e.2.requirements.get r.id else none) =
          l.findSome? (fun e => if compare e.1 a = .lt then e.2.requirements.get r.id else none) := by
      intro l
      induction l with
      | nil => intro _; rfl
      | cons e l ih =>
        intro hl
        have ih := ih fun x hx => hl x (by simp [hx])
        cases he : part e.1 with
        | true => rw [List.filter_cons_of_pos (by simp [he]), List.findSome?_cons, List.findSome?_cons, ih]
        | false =>
          rw [List.filter_cons_of_neg (by simp [he]), List.findSome?_cons, ih]
          have : e.2.requirements.get r.id = none := by
            cases hg : e.2.requirements.get r.id with
            | none => rfl
            | some s =>
              have hget := (BMap.get_eq_some_iff _ _ _).2 (hl e (by simp))
              have hid := hk.requirement _ _ hget _ _ hg
              have := hs.apart e.1 a s r ⟨e.2, hget, by rw [hid]; exact hg⟩ hd hid
              rw [he, hq] at this
              cases this
          rw [this]
          simp
    exact this _ fun _ h => h
  · exact fun y hy => decide_eq_false fun h => by rw [(about y hy).1 h] at hq; cases hq

theorem Parts.relationErrors_part :
    p.relations.flatMap (relationErrors p) = aboutPart part g (g.relations.flatMap (relationErrors g)) := by
  rw [hp.relations]
  have about : ∀ rel ∈ g.relations, ∀ y ∈ relationErrors g rel, (AboutPart part g y ↔ part rel.upper = true) := by
    intro rel hr y hy
    rcases mem_relationErrors.1 hy with ⟨ev, h1, h2⟩ | ⟨-, rfl⟩
    · obtain ⟨a, e1, e2, e3⟩ := ends hk hs hr h1
      have u := inPart hs e2
      have l := inPart hs e3
      rw [e1] at l
      unfold titleErrors at h2
      split at h2 <;> split at h2 <;> simp at h2 <;> (subst h2; first | exact u | exact l)
    · exact Iff.rfl
  refine flatMap_filter ?_ ?_
  · intro rel hr hq
    exact ⟨(events hk hk' hs hp hr hq).2.2, fun y hy => decide_eq_true ((about rel hr y hy).2 hq)⟩
  · intro rel hr hq y hy
    exact decide_eq_false fun h => by rw [(about rel hr y hy).1 h] at hq; cases hq

theorem Parts.linked {dir : CoverageDirection} {k : RequirementId × RequirementId}
    (h : InPart part g k.1 ∨ InPart part g k.2) : Spec.linked p dir k = Spec.linked g dir k := by
  unfold Spec.linked
  rw [Bool.eq_iff_iff, List.any_eq_true, List.any_eq_true]
  constructor
  · rintro ⟨e, h1, h2⟩
    exact ⟨e, ((mem_allEvents_part hk hk' hs hp e).1 h1).1, h2⟩
  · rintro ⟨e, h1, h2⟩
    refine ⟨e, (mem_allEvents_part hk hk' hs hp e).2 ⟨h1, ?_⟩, h2⟩
    simp only [Bool.and_eq_true, beq_iff_eq] at h2
    obtain ⟨⟨-, h3⟩, h4⟩ := h2
    rcases h with h | h
    · unfold allEvents at h1
      obtain ⟨rel, hr, he⟩ := List.mem_flatMap.1 h1
      obtain ⟨a, e1, e2, e3⟩ := ends hk hs hr he
      rw [← h3] at h
      exact (inPart hs e3).2 (e1.trans ((inPart hs e2).1 h))
    · rw [h4]; exact h

theorem Parts.danglingCovers_part : danglingCovers p = aboutPart part g (danglingCovers g) := by
  have hlinks : coverLinks p = (coverLinks g).filter
      (fun k => @decide (InPart part g k.2) (Classical.propDecidable _)) := by
    refine sorted_pairs_ext (BMap.keys_sorted _) ((BMap.keys_sorted _).filter _) fun k => ?_
    rw [List.mem_filter, mem_coverLinks, mem_coverLinks, entries hp]
    constructor
    · rintro ⟨e, he, r, hr, ref, h1, rfl⟩
      rw [List.mem_filter] at he
      rw [owned hk hk' hs hp he.2] at hr
      exact ⟨⟨e, he.1, r, hr, ref, h1, rfl⟩, decide_eq_true ((inPart hs ((mem_owned hk _ _).1 hr).1).2 he.2)⟩
    · rintro ⟨⟨e, he, r, hr, ref, h1, rfl⟩, h2⟩
      have h3 := (inPart hs ((mem_owned hk _ _).1 hr).1).1 (of_decide_eq_true h2)
      exact ⟨e, List.mem_filter.2 ⟨he, h3⟩, r, by rw [owned hk hk' hs hp h3]; exact hr, ref, h1, rfl⟩
  unfold danglingCovers
  rw [hlinks, List.filter_filter, filterMap_flatMap, filterMap_flatMap]
  have comm : ∀ (q q' : RequirementId × RequirementId → Bool), (coverLinks g).filter (fun k => q k && q' k) =
      ((coverLinks g).filter q).filter q' := by
    intro q q'
    rw [List.filter_filter]
    exact List.filter_congr fun k _ => Bool.and_comm ..
  have h1 : (coverLinks g).filter (fun k => !Spec.linked p .upwards k && @decide (InPart part g k.2) (Classical.propDecidable _)) =
      ((coverLinks g).filter fun k => !Spec.linked g .upwards k).filter
        (fun k => @decide (InPart part g k.2) (Classical.propDecidable _)) := by
    rw [← comm]
    refine List.filter_congr fun k _ => ?_
    by_cases h : InPart part g k.2
    · rw [linked hk hk' hs hp (.inr h)]
    · rw [decide_eq_false h]; simp
  rw [h1]
  have about : ∀ (k : RequirementId × RequirementId), ∀ y ∈ ((Spec.owner g k.2).bind fun l =>
      (l.covers.find? (fun r => r.id == k.1)).map fun ref => Error.coversUnknownRequirement l k.1 ref.location).toList,
      (AboutPart part g y ↔ InPart part g k.2) := by
    intro k y hy
    rw [Option.mem_toList] at hy
    obtain ⟨l, hl, hy⟩ := Option.bind_eq_some_iff.1 hy
    obtain ⟨ref, -, rfl⟩ := Option.map_eq_some_iff.1 hy
    rw [← (exists_owner hk hl).1]
    exact Iff.rfl
  refine flatMap_filter ?_ ?_
  · intro k hk1 hq
    have hq := of_decide_eq_true hq
    refine ⟨?_, fun y hy => decide_eq_true ((about k y hy).2 hq)⟩
    obtain ⟨a, ha, r, hd, hid⟩ := hq
    have := owner hk hs hp hd ha
    rw [hid] at this
    rw [this]
  · intro k hk1 hq y hy
    have hq := of_decide_eq_false hq
    exact decide_eq_false fun h => hq ((about k y hy).1 h)

theorem Parts.danglingDepends_part : danglingDepends p = aboutPart part g (danglingDepends g) := by
  have hlinks : dependLinks p = (dependLinks g).filter
      (fun k => @decide (InPart part g k.1) (Classical.propDecidable _)) := by
    refine sorted_pairs_ext (BMap.keys_sorted _) ((BMap.keys_sorted _).filter _) fun k => ?_
    rw [List.mem_filter, mem_dependLinks, mem_dependLinks, entries hp]
    constructor
    · rintro ⟨e, he, r, hr, ref, h1, rfl⟩
      rw [List.mem_filter] at he
      rw [owned hk hk' hs hp he.2] at hr
      exact ⟨⟨e, he.1, r, hr, ref, h1, rfl⟩, decide_eq_true ((inPart hs ((mem_owned hk _ _).1 hr).1).2 he.2)⟩
    · rintro ⟨⟨e, he, r, hr, ref, h1, rfl⟩, h2⟩
      have h3 := (inPart hs ((mem_owned hk _ _).1 hr).1).1 (of_decide_eq_true h2)
      exact ⟨e, List.mem_filter.2 ⟨he, h3⟩, r, by rw [owned hk hk' hs hp h3]; exact hr, ref, h1, rfl⟩
  unfold danglingDepends
  rw [hlinks, List.filter_filter, filterMap_flatMap, filterMap_flatMap]
  have h1 : (dependLinks g).filter (fun k => !Spec.linked p .downwards k && @decide (InPart part g k.1) (Classical.propDecidable _)) =
      ((dependLinks g).filter fun k => !Spec.linked g .downwards k).filter
        (fun k => @decide (InPart part g k.1) (Classical.propDecidable _)) := by
    rw [List.filter_filter]
    refine List.filter_congr fun k _ => ?_
    by_cases h : InPart part g k.1
    · rw [linked hk hk' hs hp (.inl h), Bool.and_comm]
    · rw [decide_eq_false h]; simp
  rw [h1]
  have about : ∀ (k : RequirementId × RequirementId), ∀ y ∈ ((Spec.owner g k.1).bind fun u =>
      (u.depends.find? (fun r => r.id == k.2)).map fun ref => Error.dependOnUnknownRequirement u k.2 ref.location).toList,
      (AboutPart part g y ↔ InPart part g k.1) := by
    intro k y hy
    rw [Option.mem_toList] at hy
    obtain ⟨l, hl, hy⟩ := Option.bind_eq_some_iff.1 hy
    obtain ⟨ref, -, rfl⟩ := Option.map_eq_some_iff.1 hy
    rw [← (exists_owner hk hl).1]
    exact Iff.rfl
  refine flatMap_filter ?_ ?_
  · intro k hk1 hq
    have hq := of_decide_eq_true hq
    refine ⟨?_, fun y hy => decide_eq_true ((about k y hy).2 hq)⟩
    obtain ⟨a, ha, r, hd, hid⟩ := hq
    have := owner hk hs hp hd ha
    rw [hid] at this
    rw [this]
  · intro k hk1 hq y hy
    have hq := of_decide_eq_false hq
    exact decide_eq_false fun h => hq ((about k y hy).1 h)

/-- **C154** A part that no relation leaves and that shares no id with the rest, traced alone, gives what tracing the whole
says about it: the same traced relations, derived requirements and errors, in the same order. -/
theorem C154_part {tg : TracedGraph} (h : trace g = .ok tg) : ∃ tp, trace p = .ok tp ∧
    tp.tracedRelations = tg.tracedRelations.filter (fun tr => part tr.relation.upper) ∧
    (∀ a, tp.derived.get a = if part a then tg.derived.get a else none) ∧
    tp.errors = aboutPart part g tg.errors := by
  obtain ⟨htr, rfl⟩ := (trace_ok_iff hk tg).1 h
  have htr' : Traceable p := by
    intro rel hrel
    rw [hp.relations, List.mem_filter] at hrel
    obtain ⟨art, h1, h2⟩ := htr rel hrel.1
    refine ⟨art, by rw [get hp hrel.2]; exact h1, fun hne a ha => ?_⟩
    rw [get hp (by rw [hs.closed rel hrel.1 a ha]; exact hrel.2)]
    exact h2 hne a ha
  refine ⟨traced p, (trace_ok_iff hk' _).2 ⟨htr', rfl⟩, ?_, ?_, ?_⟩
  · show p.relations.map (tracedRelation p) = (g.relations.map (tracedRelation g)).filter _
    rw [hp.relations, List.filter_map]
    refine List.map_congr_left fun rel hr => ?_
    rw [List.mem_filter] at hr
    exact (events hk hk' hs hp hr.1 hr.2).2.1
  · intro a
    show (derivedMap p).get a = if part a then (derivedMap g).get a else none
    unfold derivedMap
    rw [get_ofList_map, get_ofList_map, hp.artefacts]
    cases ha : part a with
    | false => rfl
    | true =>
      simp only [if_true]
      cases g.artefacts.get a with
      | none => rfl
      | some art =>
        simp only [Option.map_some, derived]
        rw [owned hk hk' hs hp ha]
        congr 2
        · refine List.filter_congr fun id hid => ?_
          obtain ⟨r, hr, rfl⟩ := List.mem_map.1 hid
          have hd := ((mem_owned hk a r).1 hr).1
          rw [Bool.eq_iff_iff, List.all_eq_true, List.all_eq_true]
          constructor
          · intro h1 e he
            by_cases hi : InPart part g e.lower.id
            · exact h1 e ((mem_allEvents_part hk hk' hs hp e).2 ⟨he, hi⟩)
            · simp only [bne_iff_ne, ne_eq]
              intro h2
              exact hi (by rw [h2]; exact (inPart hs hd).2 ha)
          · intro h1 e he
            exact h1 e ((mem_allEvents_part hk hk' hs hp e).1 he).1
  · show duplicateErrors p ++ p.relations.flatMap (relationErrors p) ++ danglingCovers p ++ danglingDepends p =
      aboutPart part g (duplicateErrors g ++ g.relations.flatMap (relationErrors g) ++ danglingCovers g ++ danglingDepends g)
    unfold aboutPart
    rw [List.filter_append, List.filter_append, List.filter_append]
    rw [Parts.duplicates hk hs hp, Parts.relationErrors_part hk hk' hs hp, Parts.danglingCovers_part hk hk' hs hp,
      Parts.danglingDepends_part hk hk' hs hp]
    rfl

end

/-- **C154** The whole has something to complain about exactly if one of its two parts has. -/
theorem C154_verdict {part : ArtefactId → Bool} {p q g : Graph} {tp tq tg : TracedGraph} (hk : Keyed g) (hkp : Keyed p)
    (hkq : Keyed q) (hs : Separates part g) (hp : IsPart part p g) (hq : IsPart (fun a => !part a) q g)
    (h : trace g = .ok tg) (h1 : trace p = .ok tp) (h2 : trace q = .ok tq) :
    (TraceProblem tg ↔ TraceProblem tp ∨ TraceProblem tq) ∧
    (ParseProblem g.artefacts ↔ ParseProblem p.artefacts ∨ ParseProblem q.artefacts) := by
  have hs' : Separates (fun a => !part a) g := ⟨fun rel hr b hb => by rw [hs.closed rel hr b hb],
    fun a b r s d1 d2 e => by rw [hs.apart a b r s d1 d2 e]⟩
  obtain ⟨tp', e1, p1, p2, p3⟩ := C154_part hk hkp hs hp h
  obtain ⟨tq', e2, q1, q2, q3⟩ := C154_part hk hkq hs' hq h
  rw [h1] at e1
  rw [h2] at e2
  cases e1
  cases e2
  have hparse : ParseProblem g.artefacts ↔ ParseProblem p.artefacts ∨ ParseProblem q.artefacts := by
    unfold ParseProblem
    constructor
    · rintro ⟨a, art, e, ha, he⟩
      cases hpa : part a with
      | true => exact .inl ⟨a, art, e, by rw [hp.artefacts, if_pos hpa]; exact ha, he⟩
      | false => exact .inr ⟨a, art, e, by rw [hq.artefacts, if_pos (by simp [hpa])]; exact ha, he⟩
    · rintro (⟨a, art, e, ha, he⟩ | ⟨a, art, e, ha, he⟩)
      · rw [hp.artefacts] at ha
        split at ha
        · exact ⟨a, art, e, ha, he⟩
        · cases ha
      · rw [hq.artefacts] at ha
        split at ha
        · exact ⟨a, art, e, ha, he⟩
        · cases ha
  refine ⟨?_, hparse⟩
  have herr : (∃ e, e ∈ tg.errors) ↔ (∃ e, e ∈ tp.errors) ∨ ∃ e, e ∈ tq.errors := by
    rw [p3, q3]
    unfold aboutPart
    simp only [List.mem_filter]
    constructor
    · rintro ⟨e, he⟩
      have he' := he
      obtain ⟨-, rfl⟩ := (trace_ok_iff hk tg).1 h
      have side : AboutPart part g e ∨ AboutPart (fun a => !part a) g e := by
        have by_req : ∀ {a : ArtefactId} {r : Requirement}, Defines g a r → InPart part g r.id ∨ InPart (fun a => !part a) g r.id := by
          intro a r hd
          cases hpa : part a with
          | true => exact .inl ⟨a, hpa, r, hd, rfl⟩
          | false => exact .inr ⟨a, by simp [hpa], r, hd, rfl⟩
        rcases (mem_errors hk e).1 he with ⟨r, s, rfl, a, b, d, -⟩ | ⟨rel, hr, ⟨ev, hev, h3⟩ | ⟨-, rfl⟩⟩ |
          ⟨r, u, ref, rfl, ⟨a, d⟩, -⟩ | ⟨r, u, ref, rfl, ⟨a, d⟩, -⟩
        · exact by_req d.1
        · obtain ⟨a, -, d1, d2⟩ := Parts.ends (part := part) hk hs hr hev
          unfold titleErrors at h3
          split at h3 <;> split at h3 <;> simp at h3 <;> (subst h3; first | exact by_req d1 | exact by_req d2)
        · cases hpa : part rel.upper with
          | true => exact .inl hpa
          | false => exact .inr (by show (!part rel.upper) = true; rw [hpa]; rfl)
        · exact by_req d.1
        · exact by_req d.1
      rcases side with hh | hh
      · exact .inl ⟨e, he', decide_eq_true hh⟩
      · exact .inr ⟨e, he', decide_eq_true hh⟩
    · rintro (⟨e, he, -⟩ | ⟨e, he, -⟩) <;> exact ⟨e, he⟩
  have hunc : (∃ tr ∈ tg.tracedRelations, ∃ r, r ∈ tr.uncovered) ↔
      (∃ tr ∈ tp.tracedRelations, ∃ r, r ∈ tr.uncovered) ∨ ∃ tr ∈ tq.tracedRelations, ∃ r, r ∈ tr.uncovered := by
    rw [p1, q1]
    simp only [List.mem_filter]
    constructor
    · rintro ⟨tr, htr, r, hr⟩
      cases hpa : part tr.relation.upper with
      | true => exact .inl ⟨tr, ⟨htr, hpa⟩, r, hr⟩
      | false => exact .inr ⟨tr, ⟨htr, by simp [hpa]⟩, r, hr⟩
    · rintro (⟨tr, ⟨htr, -⟩, r, hr⟩ | ⟨tr, ⟨htr, -⟩, r, hr⟩) <;> exact ⟨tr, htr, r, hr⟩
  have hder : (∃ a ids r, tg.derived.get a = some ids ∧ r ∈ ids) ↔
      (∃ a ids r, tp.derived.get a = some ids ∧ r ∈ ids) ∨ ∃ a ids r, tq.derived.get a = some ids ∧ r ∈ ids := by
    simp only [p2, q2]
    constructor
    · rintro ⟨a, ids, r, ha, hr⟩
      cases hpa : part a with
      | true => exact .inl ⟨a, ids, r, by rw [if_pos hpa]; exact ha, hr⟩
      | false => exact .inr ⟨a, ids, r, by rw [if_pos (by simp [hpa])]; exact ha, hr⟩
    · rintro (⟨a, ids, r, ha, hr⟩ | ⟨a, ids, r, ha, hr⟩)
      all_goals
        split at ha
        · exact ⟨a, ids, r, ha, hr⟩
        · cases ha
  unfold TraceProblem
  rw [(C11_frame hk h).1, (C11_frame hkp h1).1, (C11_frame hkq h2).1, hparse, herr, hunc, hder]
  apply Iff.of_eq
  ac_rfl

/-- **C154** The configuration of the part gives that part of the project. -/
theorem C154_project {part : ArtefactId → Bool} {env : Env} {w : World} {config : Config} {base : Path} {c : Controller}
    (h : Controller.new env w config base = .ok c)
    (hc : ∀ rel ∈ config.relations, ∀ b ∈ rel.lower, part b = part rel.upper) :
    ∃ cp, Controller.new env w (partOfConfig part config) base = .ok cp ∧ IsPart part cp.graph c.graph := by
  obtain ⟨g, hg, rfl⟩ := (C82_controller env w config base c).1 h
  have hlast : ∀ ac, LastEntry (partOfConfig part config) ac ↔ part ac.id = true ∧ LastEntry config ac := by
    intro ac
    unfold LastEntry
    show (∃ pre post, config.artefacts.filter (fun ac => part ac.id) = pre ++ ac :: post ∧ _) ↔ _
    constructor
    · rintro ⟨pre, post, e, hpost⟩
      obtain ⟨l1, l2, e1, e2, e3⟩ := List.filter_eq_append_iff.1 e
      obtain ⟨m1, m2, f1, f2, f3, f4⟩ := List.filter_eq_cons_iff.1 e3
      refine ⟨f3, l1 ++ m1, m2, by rw [e1, f1]; simp, fun b hb hid => ?_⟩
      refine hpost b ?_ hid
      rw [← f4, List.mem_filter]
      exact ⟨hb, by rw [hid]; exact f3⟩
    · rintro ⟨hpa, pre, post, e, hpost⟩
      refine ⟨pre.filter (fun ac => part ac.id), post.filter (fun ac => part ac.id), ?_, fun b hb => hpost b (List.mem_filter.1 hb).1⟩
      rw [e, List.filter_append, List.filter_cons_of_pos (by simpa using hpa)]
  have hroot : ∀ ac : ArtefactConfig, part ac.id = true → (IsRoot (partOfConfig part config) ac.id ↔ IsRoot config ac.id) := by
    intro ac hpa
    unfold IsRoot
    constructor
    · intro h rel hr hl
      refine h rel (List.mem_filter.2 ⟨hr, ?_⟩) hl
      rw [← hc rel hr _ hl]; exact hpa
    · intro h rel hr
      exact h rel (List.mem_filter.1 hr).1
  let p : Graph := ⟨⟨g.artefacts.entries.filter (fun e => part e.1), g.artefacts.sorted.sublist List.filter_sublist⟩, g.relations.filter (fun rel => part rel.upper)⟩
  have hget : ∀ a, p.artefacts.get a = if part a then g.artefacts.get a else none := by
    intro a
    apply Option.ext
    intro art
    rw [BMap.get_eq_some_iff, show p.artefacts.entries = g.artefacts.entries.filter (fun e => part e.1) from rfl,
      List.mem_filter, ← BMap.get_eq_some_iff]
    cases part a <;> simp
  have hin : IsInput env w (partOfConfig part config) base p := by
    refine ⟨by rw [show p.relations = g.relations.filter (fun rel => part rel.upper) from rfl, hg.relations]; rfl, ?_, ?_, ?_⟩
    · intro rel hr
      obtain ⟨hr, hpu⟩ := List.mem_filter.1 hr
      obtain ⟨⟨ac, h1, h2⟩, h3⟩ := hg.configured rel hr
      refine ⟨⟨ac, List.mem_filter.2 ⟨h1, by rw [h2]; exact hpu⟩, h2⟩, fun b hb => ?_⟩
      obtain ⟨ac', h4, h5⟩ := h3 b hb
      exact ⟨ac', List.mem_filter.2 ⟨h4, by rw [h5, hc rel hr b hb]; exact hpu⟩, h5⟩
    · intro ac hac
      exact hg.all ac (List.mem_filter.1 hac).1
    · intro a art
      rw [hget]
      cases hpa : part a with
      | false =>
        constructor
        · intro h; cases h
        · rintro ⟨ac, h1, rfl, -⟩
          rw [hlast, hpa] at h1
          cases h1.1
      | true =>
        rw [if_pos rfl, hg.artefacts]
        apply exists_congr
        intro ac
        constructor
        · rintro ⟨h1, rfl, r, e, u, h2⟩
          exact ⟨(hlast ac).2 ⟨hpa, h1⟩, rfl, r, e, u, (isArtefact_root (hroot ac hpa)).2 h2⟩
        · rintro ⟨h1, rfl, r, e, u, h2⟩
          exact ⟨((hlast ac).1 h1).2, rfl, r, e, u, (isArtefact_root (hroot ac hpa)).1 h2⟩
  exact ⟨_, (C82_controller env w _ base _).2 ⟨p, hin, rfl⟩, hget, rfl⟩

/-- **C154** If the reports can be written, the exit code is the worse one of those of the two parts. -/
theorem C154_exit {part : ArtefactId → Bool} {env : Env} {w : World} {opt opt1 opt2 : Arguments} {config : Config}
    (hb1 : opt1.baseDir = opt.baseDir) (hj1 : opt1.jobs = opt.jobs) (hb2 : opt2.baseDir = opt.baseDir) (hj2 : opt2.jobs = opt.jobs)
    (hg : GoodConfig env w opt.configFile config) (hg1 : GoodConfig env w opt1.configFile (partOfConfig part config))
    (hg2 : GoodConfig env w opt2.configFile (partOfConfig (fun a => !part a) config))
    (hs : ∀ c, Controller.new env w config opt.baseDir = .ok c → Separates part c.graph)
    (h : (Main.main env opt w).1 ≤ 1) (h1 : (Main.main env opt1 w).1 ≤ 1) (h2 : (Main.main env opt2 w).1 ≤ 1) :
    (Main.main env opt w).1 = max (Main.main env opt1 w).1 (Main.main env opt2 w).1 := by
  have code : ∀ {opt : Arguments}, (Main.main env opt w).1 ≤ 1 → ∃ c js v, AllRun env opt w c js v ∧
      (((Main.main env opt w).1 = 1 ∧ Detected c js) ∨ ((Main.main env opt w).1 = 0 ∧ ¬ Detected c js)) := by
    intro opt h
    obtain ⟨a0, a1, -⟩ := C28_exit_code_partial env opt w
    have : (Main.main env opt w).1 = 0 ∨ (Main.main env opt w).1 = 1 := by omega
    rcases this with x | x
    · obtain ⟨c, js, v, p1, p2⟩ := a0.1 x
      exact ⟨c, js, v, p1, .inr ⟨x, p2⟩⟩
    · obtain ⟨c, js, v, p1, p2⟩ := a1.1 x
      exact ⟨c, js, v, p1, .inl ⟨x, p2⟩⟩
  obtain ⟨c, js, v, ⟨cfg, g1, g2, -, g3, -⟩, hv⟩ := code h
  obtain ⟨c1, js1, v1, ⟨cfg1, k1, k2, -, k3, -⟩, hv1⟩ := code h1
  obtain ⟨c2, js2, v2, ⟨cfg2, l1, l2, -, l3, -⟩, hv2⟩ := code h2
  cases GoodConfig_unique g1 hg
  cases GoodConfig_unique k1 hg1
  cases GoodConfig_unique l1 hg2
  have hsep := hs c g2
  have hrel := (C18_no_panic g2).2.1
  have hc : ∀ rel ∈ config.relations, ∀ b ∈ rel.lower, part b = part rel.upper := by
    rw [← hrel]; exact hsep.closed
  obtain ⟨cp, n1, hp⟩ := C154_project g2 hc
  obtain ⟨cq, n2, hq⟩ := C154_project (part := fun a => !part a) g2 fun rel hr b hb => by rw [hc rel hr b hb]
  rw [hb1, n1] at k2
  rw [hb2, n2] at l2
  cases k2
  cases l2
  have r1 : requested (partOfConfig part config) opt1 = requested config opt := by unfold requested; rw [hj1]; rfl
  have r2 : requested (partOfConfig (fun a => !part a) config) opt2 = requested config opt := by unfold requested; rw [hj2]; rfl
  rw [r1] at k3
  rw [r2] at l3
  obtain ⟨d1, d2⟩ := C154_verdict (C18_consistent g2).1 (C18_consistent n1).1 (C18_consistent n2).1 hsep hp hq
    (C18_no_panic g2).1 (C18_no_panic n1).1 (C18_no_panic n2).1
  have det : ∀ j, Detects c j ↔ Detects c1 j ∨ Detects c2 j := by
    intro j
    unfold Detects
    split
    · exact d1
    · exact d2
  have m1 : ∀ j, j ∈ js1 ↔ j ∈ js := fun j => (k3.mem j).trans (g3.mem j).symm
  have m2 : ∀ j, j ∈ js2 ↔ j ∈ js := fun j => (l3.mem j).trans (g3.mem j).symm
  have key : Detected c js ↔ Detected c1 js1 ∨ Detected c2 js2 := by
    unfold Detected
    simp only [m1, m2, det]
    constructor
    · rintro ⟨j, x1, x2, x3 | x3⟩
      · exact .inl ⟨j, x1, x2, x3⟩
      · exact .inr ⟨j, x1, x2, x3⟩
    · rintro (⟨j, x1, x2, x3⟩ | ⟨j, x1, x2, x3⟩)
      · exact ⟨j, x1, x2, .inl x3⟩
      · exact ⟨j, x1, x2, .inr x3⟩
  rcases hv with ⟨y, z⟩ | ⟨y, z⟩ <;> rcases hv1 with ⟨y1, z1⟩ | ⟨y1, z1⟩ <;> rcases hv2 with ⟨y2, z2⟩ | ⟨y2, z2⟩ <;>
    rw [y, y1, y2] <;> first | rfl | (exfalso; rw [key] at z; simp_all)

namespace PartsExample

open CtrlExample

def config : Config where
  version := some 0
  artefacts := [⟨c!"UP", [c!"up.md"], .markdown, none, none⟩, ⟨c!"REQ", [c!"req.md"], .markdown, none, none⟩,
    ⟨c!"LO", [c!"lo.md"], .markdown, none, none⟩, ⟨c!"IMP", [c!"imp.md"], .markdown, none, none⟩]
  relations := [⟨c!"UP", [c!"LO"]⟩, ⟨c!"REQ", [c!"IMP"]⟩]
  jobs := some (BMap.ofList [(c!"trace", ⟨.trace, .gnuError, c!"-", none⟩)])
  defaultJobs := some [c!"trace"]

def part (a : ArtefactId) : Bool := a == c!"UP" || a == c!"LO"

/-- `U1` is covered; `R2` is not, and `IMP` covers something of the other part. -/
def w : World := world [(c!"requirements.toml", c!"..."), (c!"part.toml", c!"."), (c!"rest.toml", c!".."),
  (c!"p/up.md", c!"# U1: one\n"), (c!"p/lo.md", c!"# L1: low\nCovers: U1\n"),
  (c!"p/req.md", c!"# R1: one\n# R2: two\n"), (c!"p/imp.md", c!"# I1: imp\nCovers: R1, U1\n")]

def e : Env := { CtrlExample.env .nil config with
  tomlTree := fun b => .ok (ConfigRead.tree (if b = Utf8.encode c!"..." then config
    else if b = Utf8.encode c!"." then partOfConfig part config else partOfConfig (fun a => !part a) config)) }

/-- `Separates`, decided. -/
def check (part : ArtefactId → Bool) (g : Graph) : Bool :=
  g.relations.all (fun rel => rel.lower.all fun b => part b == part rel.upper) &&
  g.artefacts.entries.all fun e => g.artefacts.entries.all fun f =>
    part e.1 == part f.1 || e.2.requirements.values.all fun r => f.2.requirements.values.all fun s => r.id != s.id

theorem separates_of_check {part : ArtefactId → Bool} {g : Graph} (h : check part g = true) : Separates part g := by
  simp only [check, Bool.and_eq_true, List.all_eq_true, Bool.or_eq_true, beq_iff_eq, bne_iff_ne] at h
  refine ⟨h.1, ?_⟩
  intro a b r s ⟨x, hx1, hx2⟩ ⟨y, hy1, hy2⟩ hid
  rcases h.2 _ ((BMap.get_eq_some_iff _ _ _).1 hx1) _ ((BMap.get_eq_some_iff _ _ _).1 hy1) with h | h
  · exact h
  · exact absurd hid (h _ ((BMap.mem_values_iff _ _).2 ⟨_, hx2⟩) _ ((BMap.mem_values_iff _ _).2 ⟨_, hy2⟩))

theorem fine : (match Controller.new e w config c!"p" with
    | .ok c => check part c.graph && c.tracedGraph.errors.length == 1
    | _ => false) = true := by decide +kernel

/-- The part is in order, the rest is not, so the whole is not. -/
example : (Main.main e ⟨c!"part.toml", c!"p", []⟩ w).1 = 0 ∧ (Main.main e ⟨c!"rest.toml", c!"p", []⟩ w).1 = 1 ∧
    (Main.main e ⟨c!"requirements.toml", c!"p", []⟩ w).1 = 1 := by
  have h1 : (Main.main e ⟨c!"part.toml", c!"p", []⟩ w).1 = 0 := by decide +kernel
  have h2 : (Main.main e ⟨c!"rest.toml", c!"p", []⟩ w).1 = 1 := by decide +kernel
  refine ⟨h1, h2, ?_⟩
  have := C154_exit (part := part) (env := e) (w := w) (config := config) (opt := ⟨c!"requirements.toml", c!"p", []⟩) (opt1 := ⟨c!"part.toml", c!"p", []⟩) (opt2 := ⟨c!"rest.toml", c!"p", []⟩) rfl rfl rfl rfl
    ⟨⟨Utf8.encode c!"...", none⟩, _, by decide +kernel, rfl, rfl, (C78_config _ _).1 rfl, fun v hv => by cases hv; rfl⟩
    ⟨⟨Utf8.encode c!".", none⟩, _, by decide +kernel, rfl, rfl, (C78_config _ _).1 rfl, fun v hv => by cases hv; rfl⟩
    ⟨⟨Utf8.encode c!"..", none⟩, _, by decide +kernel, rfl, rfl, (C78_config _ _).1 rfl, fun v hv => by cases hv; rfl⟩
    (fun c hc => by
      have h := fine
      rw [hc] at h
      simp only [Bool.and_eq_true] at h
      exact separates_of_check h.1)
    (by decide +kernel) (Nat.le_trans (Nat.le_of_eq h1) (Nat.zero_le 1)) (Nat.le_of_eq h2)
  rw [this, h1, h2]
  rfl

/-- The errors are shared out among the parts. -/
example : ∃ (c cp : Controller), Controller.new e w config c!"p" = .ok c ∧ Controller.new e w (partOfConfig part config) c!"p" = .ok cp ∧
    cp.tracedGraph.errors = aboutPart part c.graph c.tracedGraph.errors ∧ cp.tracedGraph.errors = [] ∧
    c.tracedGraph.errors.length = 1 := by
  have h := fine
  cases h1 : Controller.new e w config c!"p" with
  | error x => rw [h1] at h; cases h
  | ok c =>
    rw [h1] at h
    simp only [Bool.and_eq_true, beq_iff_eq] at h
    have hs := separates_of_check h.1
    obtain ⟨cp, h2, hp⟩ := C154_project (part := part) h1 (by rw [← (C18_no_panic h1).2.1]; exact hs.closed)
    refine ⟨c, cp, rfl, h2, ?_, ?_, h.2⟩
    · obtain ⟨tp, t1, -, -, t2⟩ := C154_part (C18_consistent h1).1 (C18_consistent h2).1 hs hp (C18_no_panic h1).1
      rw [(C18_no_panic h2).1] at t1
      cases t1
      exact t2
    · have : (match Controller.new e w (partOfConfig part config) c!"p" with
        | .ok c => c.tracedGraph.errors.isEmpty
        | _ => false) = true := by decide +kernel
      rw [h2] at this
      simpa using this

end PartsExample

end Reqtrace
