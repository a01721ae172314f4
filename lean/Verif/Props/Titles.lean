import Verif.Props.Places
import Verif.Props.Version
import Verif.Props.Replaced
import Verif.Spec.Titles

/-!
# C140: what another title changes
-/

namespace Reqtrace

open Spec

theorem flatMap_map_comm {α β γ δ : Type} {f : α → β} {F : β → List δ} {G : α → List γ} {m : γ → δ} {l : List α}
    (h : ∀ a ∈ l, F (f a) = (G a).map m) : (l.map f).flatMap F = (l.flatMap G).map m := by
  rw [List.flatMap_map, List.map_flatMap]
  exact flatMap_congr_mem h

namespace Titles

variable {h : Requirement → Requirement} {k : Artefact → Artefact} (hh : Retitles h) (hk : RepaintsArtefact h k) (g : Graph)

include hh in
theorem same_id (r : Requirement) : (h r).id = r.id := by obtain ⟨t, e⟩ := hh r; rw [e]
include hh in
theorem covers_eq (r : Requirement) : (h r).covers = r.covers := by obtain ⟨t, e⟩ := hh r; rw [e]
include hh in
theorem depends_eq (r : Requirement) : (h r).depends = r.depends := by obtain ⟨t, e⟩ := hh r; rw [e]

/-- The graph with the other titles. -/
abbrev other (k : Artefact → Artefact) (g : Graph) : Graph := { g with artefacts := g.artefacts.mapValues k }

/-- The event with the other titles. -/
def ev (h : Requirement → Requirement) (e : Spec.Event) : Spec.Event := { e with upper := h e.upper, lower := h e.lower }

theorem get (a : ArtefactId) : (other k g).artefacts.get a = (g.artefacts.get a).map k := BMap.get_mapValues ..

include hk

theorem reqs_get (art : Artefact) (i : RequirementId) : (k art).requirements.get i = (art.requirements.get i).map h := by
  rw [hk.requirements, BMap.get_mapValues]

theorem values (art : Artefact) : (k art).requirements.values = art.requirements.values.map h := by
  rw [hk.requirements, BMap.values_mapValues]

include hh

theorem keyed (hg : Keyed g) : Keyed (other k g) := by
  constructor
  · intro a art ha
    rw [get, Option.map_eq_some_iff] at ha
    obtain ⟨art0, ha, rfl⟩ := ha
    rw [hk.id]
    exact hg.artefact a art0 ha
  · intro a art ha i r hr
    rw [get, Option.map_eq_some_iff] at ha
    obtain ⟨art0, ha, rfl⟩ := ha
    rw [reqs_get hk, Option.map_eq_some_iff] at hr
    obtain ⟨s, hs, rfl⟩ := hr
    rw [same_id hh]
    exact hg.requirement a art0 ha i s hs

theorem owned (a : ArtefactId) : Spec.owned (other k g) a = (Spec.owned g a).map h := by
  unfold Spec.owned
  rw [get]
  cases g.artefacts.get a with
  | none => rfl
  | some art =>
    simp only [Option.map_some, values hk]
    rw [List.filter_map]
    congr 1
    refine List.filter_congr fun r _ => ?_
    simp only [Function.comp_apply, same_id hh, other, BMap.mapValues, List.all_map]
    refine List.all_congr rfl fun e => ?_
    simp [reqs_get hk]

theorem upperReqs (rel : Relation) : Spec.upperReqs (other k g) rel = (Spec.upperReqs g rel).map h := by
  unfold Spec.upperReqs
  rw [get]
  cases g.artefacts.get rel.upper with
  | none => rfl
  | some art => exact values hk art

theorem reqEvents (rel : Relation) (u : Requirement) :
    Spec.reqEvents (other k g) rel (h u) = (Spec.reqEvents g rel u).map (ev h) := by
  unfold Spec.reqEvents downEvents upEvents
  rw [List.map_append, depends_eq hh]
  congr 1
  · rw [List.map_flatMap]
    refine flatMap_congr_mem fun ref _ => ?_
    rw [List.map_flatMap]
    refine flatMap_congr_mem fun a _ => ?_
    rw [owned hh hk, List.filter_map, List.map_map, List.map_map]
    simp only [Function.comp_def, same_id hh]
    rfl
  · rw [List.map_flatMap]
    refine flatMap_congr_mem fun a _ => ?_
    rw [owned hh hk]
    refine flatMap_map_comm fun l _ => ?_
    rw [covers_eq hh, same_id hh, List.map_map]
    rfl

theorem relEvents (rel : Relation) : Spec.relEvents (other k g) rel = (Spec.relEvents g rel).map (ev h) := by
  unfold Spec.relEvents
  rw [upperReqs hh hk]
  exact flatMap_map_comm fun u _ => reqEvents hh hk g rel u

theorem allEvents : Spec.allEvents (other k g) = (Spec.allEvents g).map (ev h) := by
  unfold Spec.allEvents
  rw [List.map_flatMap]
  exact flatMap_congr_mem fun rel _ => relEvents hh hk g rel

theorem tracedRelation (rel : Relation) : Spec.tracedRelation (other k g) rel = Spec.tracedRelation g rel := by
  unfold Spec.tracedRelation Spec.uncovered
  rw [relEvents hh hk, upperReqs hh hk, List.map_map, List.filter_map, List.map_map]
  congr 1
  · refine List.map_congr_left fun e _ => ?_
    simp [ev, Event.coverage, same_id hh]
  · simp only [Function.comp_def, same_id hh, reqEvents hh hk, List.isEmpty_map]

theorem derived_eq (a : ArtefactId) (art : Artefact) : derived (other k g) a (k art) = derived g a art := by
  unfold derived
  rw [hk.ignoreDerived, owned hh hk, allEvents hh hk, List.map_map]
  simp only [List.all_map, Function.comp_def, same_id hh, ev]

theorem derivedMap : Spec.derivedMap (other k g) = Spec.derivedMap g := by
  unfold Spec.derivedMap
  congr 1
  rw [show (other k g).artefacts.entries = g.artefacts.entries.map (fun e => (e.1, k e.2)) from rfl, List.map_map]
  refine List.map_congr_left fun e _ => ?_
  simp only [Function.comp_apply, derived_eq hh hk]

theorem defines (b : ArtefactId) (s' : Requirement) : Defines (other k g) b s' ↔ ∃ s, Defines g b s ∧ s' = h s := by
  constructor
  · rintro ⟨art, ha, hs⟩
    rw [get, Option.map_eq_some_iff] at ha
    obtain ⟨art0, ha, rfl⟩ := ha
    rw [reqs_get hk, Option.map_eq_some_iff] at hs
    obtain ⟨s, hs, rfl⟩ := hs
    rw [same_id hh] at hs
    exact ⟨s, ⟨art0, ha, hs⟩, rfl⟩
  · rintro ⟨s, ⟨art, ha, hs⟩, rfl⟩
    exact ⟨k art, by rw [get, ha]; rfl, by rw [reqs_get hk, same_id hh, hs]; rfl⟩

theorem owns (b : ArtefactId) (s' : Requirement) : Owns (other k g) b s' ↔ ∃ s, Owns g b s ∧ s' = h s := by
  constructor
  · rintro ⟨h1, h2⟩
    obtain ⟨s, hs, rfl⟩ := (defines hh hk g b s').1 h1
    refine ⟨s, ⟨hs, fun c t hc ht e => ?_⟩, rfl⟩
    refine h2 c _ hc ((defines hh hk g c _).2 ⟨t, ht, rfl⟩) ?_
    rw [same_id hh, same_id hh, e]
  · rintro ⟨s, ⟨h1, h2⟩, rfl⟩
    refine ⟨(defines hh hk g b _).2 ⟨s, h1, rfl⟩, fun c t' hc ht e => ?_⟩
    obtain ⟨t, ht0, rfl⟩ := (defines hh hk g c t').1 ht
    rw [same_id hh, same_id hh] at e
    exact h2 c t hc ht0 e

omit hh in
theorem traceable (ht : Traceable g) : Traceable (other k g) := by
  intro rel hrel
  obtain ⟨art, h1, h2⟩ := ht rel hrel
  refine ⟨k art, by rw [get, h1]; rfl, fun hne a ha => ?_⟩
  rw [get, Option.isSome_map]
  refine h2 (fun e => hne ?_) a ha
  rw [values hk, e]; rfl

omit hh in
theorem needsTitle (a : ArtefactId) : Spec.needsTitle (other k g) a = Spec.needsTitle g a := by
  unfold Spec.needsTitle
  rw [get]
  cases g.artefacts.get a with
  | none => rfl
  | some art => exact hk.withTitle art

omit hh in
/-- Which errors there are about the titles of a reference. -/
theorem titleErrors (rel : Relation) (e : Spec.Event) (x : Error) :
    x ∈ Spec.titleErrors (other k g) rel (ev h e) ↔
      (∃ y ∈ Spec.titleErrors g rel e, ¬ IsWrongTitle y ∧ x = repaintError (fun l => l) h y) ∨
      (∃ t, e.ref.title = some t ∧ ((e.dir = .upwards ∧ (h e.upper).title ≠ some t ∧
          x = .coveredWithWrongTitle (h e.upper) (h e.lower) t e.ref.location) ∨
        (e.dir = .downwards ∧ (h e.lower).title ≠ some t ∧
          x = .dependWithWrongTitle (h e.upper) (h e.lower) t e.ref.location))) := by
  obtain ⟨a, u, l, ref, d⟩ := e
  unfold Spec.titleErrors ev
  simp only [needsTitle hk]
  cases d <;> cases ref.title with
  | none => 
    simp only []
    split <;> simp [IsWrongTitle, repaintError]
  | some t =>
    simp only []
    split <;> split <;> simp_all [IsWrongTitle, repaintError]

end Titles

open Titles

/-- **C140** With other titles, of as many requirements as one likes, the coverages, the uncovered and the derived
requirements are the same.  Of the errors, those that say that a title is wrong are now exactly those for which the title in a
reference is not that of the requirement; all others are the same as before. -/
theorem C140_titles {h : Requirement → Requirement} {k : Artefact → Artefact} (hh : Retitles h) (hk : RepaintsArtefact h k)
    {g : Graph} (hg : Keyed g) {tg : TracedGraph} (ht : trace g = .ok tg) :
    ∃ tg', trace { g with artefacts := g.artefacts.mapValues k } = .ok tg' ∧
      tg'.tracedRelations = tg.tracedRelations ∧ tg'.derived = tg.derived ∧
      ∀ e, e ∈ tg'.errors ↔
        (∃ e0 ∈ tg.errors, ¬ IsWrongTitle e0 ∧ e = repaintError (fun l => l) h e0) ∨ WrongNow g h e := by
  obtain ⟨h1, rfl⟩ := (trace_ok_iff hg tg).1 ht
  have hg' := keyed hh hk g hg
  refine ⟨_, (trace_ok_iff hg' _).2 ⟨traceable hk g h1, rfl⟩, ?_, derivedMap hh hk g, fun e => ?_⟩
  · exact List.map_congr_left fun rel _ => tracedRelation hh hk g rel
  · rw [mem_errors hg']
    simp only [mem_errors hg, relEvents hh hk, allEvents hh hk, List.mem_map, List.map_eq_nil_iff]
    constructor
    · rintro (⟨f, s, rfl, a, b, hf, hs, hid, hlt⟩ | ⟨rel, hrel, ⟨x, ⟨y, hy, rfl⟩, he⟩ | ⟨hn, rfl⟩⟩ |
        ⟨req, up, ref, rfl, ⟨a, ha⟩, hf, hno⟩ | ⟨req, up, ref, rfl, ⟨a, ha⟩, hf, hno⟩)
      · obtain ⟨f, hf0, rfl⟩ := (owns hh hk g a f).1 hf
        obtain ⟨s, hs0, rfl⟩ := (defines hh hk g b s).1 hs
        rw [same_id hh, same_id hh] at hid
        exact .inl ⟨_, .inl ⟨f, s, rfl, a, b, hf0, hs0, hid, hlt⟩, fun h => h, rfl⟩
      · rcases (titleErrors hk g rel y e).1 he with ⟨z, hz, hw, rfl⟩ | ⟨t, ht, ⟨hd, hne, rfl⟩ | ⟨hd, hne, rfl⟩⟩
        · exact .inl ⟨z, .inr (.inl ⟨rel, hrel, .inl ⟨y, hy, hz⟩⟩), hw, rfl⟩
        · exact .inr (.covers hrel (hd ▸ (mem_relEvents hg rel y).1 hy) ht hne)
        · exact .inr (.depends hrel (hd ▸ (mem_relEvents hg rel y).1 hy) ht hne)
      · exact .inl ⟨_, .inr (.inl ⟨rel, hrel, .inr ⟨hn, rfl⟩⟩), fun h => h, rfl⟩
      · obtain ⟨req, ha0, rfl⟩ := (owns hh hk g a req).1 ha
        rw [covers_eq hh] at hf
        refine .inl ⟨_, .inr (.inr (.inl ⟨req, up, ref, rfl, ⟨a, ha0⟩, hf, fun x hx hc => hno _ ⟨x, hx, rfl⟩ ?_⟩)), fun h => h, rfl⟩
        simpa [ev, same_id hh] using hc
      · obtain ⟨req, ha0, rfl⟩ := (owns hh hk g a req).1 ha
        rw [depends_eq hh] at hf
        refine .inl ⟨_, .inr (.inr (.inr ⟨req, up, ref, rfl, ⟨a, ha0⟩, hf, fun x hx hc => hno _ ⟨x, hx, rfl⟩ ?_⟩)), fun h => h, rfl⟩
        simpa [ev, same_id hh] using hc
    · rintro (⟨e0, ⟨f, s, rfl, a, b, hf, hs, hid, hlt⟩ | ⟨rel, hrel, ⟨y, hy, he⟩ | ⟨hn, rfl⟩⟩ |
        ⟨req, up, ref, rfl, ⟨a, ha⟩, hf, hno⟩ | ⟨req, up, ref, rfl, ⟨a, ha⟩, hf, hno⟩, hw, rfl⟩ | hw)
      · exact .inl ⟨h f, h s, rfl, a, b, (owns hh hk g a _).2 ⟨f, hf, rfl⟩, (defines hh hk g b _).2 ⟨s, hs, rfl⟩,
          by rw [same_id hh, same_id hh, hid], hlt⟩
      · exact .inr (.inl ⟨rel, hrel, .inl ⟨ev h y, ⟨y, hy, rfl⟩, (titleErrors hk g rel y _).2 (.inl ⟨e0, he, hw, rfl⟩)⟩⟩)
      · exact .inr (.inl ⟨rel, hrel, .inr ⟨hn, rfl⟩⟩)
      · refine .inr (.inr (.inl ⟨h req, up, ref, rfl, ⟨a, (owns hh hk g a _).2 ⟨req, ha, rfl⟩⟩, by rw [covers_eq hh]; exact hf, ?_⟩))
        rintro _ ⟨x, hx, rfl⟩ hc
        refine hno x hx ?_
        simpa [ev, same_id hh] using hc
      · refine .inr (.inr (.inr ⟨h req, up, ref, rfl, ⟨a, (owns hh hk g a _).2 ⟨req, ha, rfl⟩⟩, by rw [depends_eq hh]; exact hf, ?_⟩))
        rintro _ ⟨x, hx, rfl⟩ hc
        refine hno x hx ?_
        simpa [ev, same_id hh] using hc
      · cases hw with
        | @covers rel b u l ref t hrel hest ht hne =>
          exact .inr (.inl ⟨rel, hrel, .inl ⟨_, ⟨⟨b, u, l, ref, .upwards⟩, (mem_relEvents hg rel _).2 hest, rfl⟩,
            (titleErrors hk g rel _ _).2 (.inr ⟨t, ht, .inl ⟨rfl, hne, rfl⟩⟩)⟩⟩)
        | @depends rel b u l ref t hrel hest ht hne =>
          exact .inr (.inl ⟨rel, hrel, .inl ⟨_, ⟨⟨b, u, l, ref, .downwards⟩, (mem_relEvents hg rel _).2 hest, rfl⟩,
            (titleErrors hk g rel _ _).2 (.inr ⟨t, ht, .inr ⟨rfl, hne, rfl⟩⟩)⟩⟩)

theorem retitle_retitles (r : Requirement) (t : Option Str) : Retitles (retitle r t) := by
  intro s
  unfold retitle
  by_cases e : s = r
  · exact ⟨t, by rw [if_pos e]⟩
  · exact ⟨s.title, by rw [if_neg e]⟩

/-- **C140**, one title: if tracing found no error, then after a change of the title of one requirement it finds one exactly
if a reference to that requirement says another title than the new one. -/
theorem C140_one {r : Requirement} {t : Option Str} {k : Artefact → Artefact} (hk : RepaintsArtefact (retitle r t) k)
    {g : Graph} (hg : Keyed g) {tg : TracedGraph} (ht : trace g = .ok tg) (hno : tg.errors = []) :
    ∃ tg', trace { g with artefacts := g.artefacts.mapValues k } = .ok tg' ∧
      (tg'.errors = [] ↔ ¬ SaysOtherTitle g r t) := by
  obtain ⟨tg', h1, -, -, h2⟩ := C140_titles (retitle_retitles r t) hk hg ht
  refine ⟨tg', h1, ?_⟩
  have hold : ∀ e, ¬ WrongNow g (fun s => s) e := by
    intro e hw
    have hid : Retitles (fun s => s) := fun s => ⟨s.title, rfl⟩
    have : e ∈ tg.errors := by
      obtain ⟨_, rfl⟩ := (trace_ok_iff hg tg).1 ht
      rw [mem_errors hg]
      cases hw with
      | @covers rel b u l ref t hrel hest ht hne =>
        exact .inr (.inl ⟨rel, hrel, .inl ⟨⟨b, u, l, ref, .upwards⟩, (mem_relEvents hg rel _).2 hest, by
          unfold Spec.titleErrors; simp only [ht]; rw [if_neg hne]; simp⟩⟩)
      | @depends rel b u l ref t hrel hest ht hne =>
        exact .inr (.inl ⟨rel, hrel, .inl ⟨⟨b, u, l, ref, .downwards⟩, (mem_relEvents hg rel _).2 hest, by
          unfold Spec.titleErrors; simp only [ht]; rw [if_neg hne]; simp⟩⟩)
    rw [hno] at this
    cases this
  have hre : ∀ s, retitle r t s = s ∨ (s = r ∧ (retitle r t s).title = t) := by
    intro s
    unfold retitle
    by_cases e : s = r
    · right; rw [if_pos e]; exact ⟨e, rfl⟩
    · left; rw [if_neg e]
  constructor
  · rintro he ⟨rel, hrel, b, u, l, ref, dir, t', hest, hr, hrt, hne⟩
    cases dir with
    | upwards =>
      rw [if_pos rfl] at hr
      subst hr
      have := (h2 _).2 (.inr (.covers hrel hest hrt (by unfold retitle; rw [if_pos rfl]; exact hne)))
      rw [he] at this; cases this
    | downwards =>
      rw [if_neg (by simp)] at hr
      subst hr
      have := (h2 _).2 (.inr (.depends hrel hest hrt (by unfold retitle; rw [if_pos rfl]; exact hne)))
      rw [he] at this; cases this
  · intro hs
    refine List.eq_nil_iff_forall_not_mem.2 fun e he => ?_
    rcases (h2 e).1 he with ⟨e0, h0, -⟩ | hw
    · rw [hno] at h0; cases h0
    · cases hw with
      | @covers rel b u l ref t' hrel hest hrt hne =>
        rcases hre u with hu | ⟨rfl, hu⟩
        · rw [hu] at hne
          exact hold _ (.covers (h := fun s => s) hrel hest hrt hne)
        · rw [hu] at hne
          exact hs ⟨rel, hrel, b, u, l, ref, _, t', hest, if_pos rfl, hrt, hne⟩
      | @depends rel b u l ref t' hrel hest hrt hne =>
        rcases hre l with hu | ⟨rfl, hu⟩
        · rw [hu] at hne
          exact hold _ (.depends (h := fun s => s) hrel hest hrt hne)
        · rw [hu] at hne
          exact hs ⟨rel, hrel, b, u, l, ref, _, t', hest, if_neg (by simp), hrt, hne⟩


/-! ## In a file -/

/-- The section with another title, if it is the one at the line. -/
def retitleSection (m : Nat) (t : Str) (s : Section) : Section := if s.line = m then { s with title := t } else s

theorem sections_line {U : Unicode} {path : Path} {n : Nat} {ls : List Str} {ss : List Section} (h : Sections U path n ls ss) :
    (∀ s ∈ ss, n ≤ s.line) ∧ ss.Pairwise (fun a b => a.line < b.line) := by
  induction h with
  | nil n => simp
  | @cons n h level id title body rest as cut ss h1 h2 h3 h4 h5 ih =>
    refine ⟨fun s hs => ?_, List.pairwise_cons.2 ⟨fun s hs => ?_, ih.2⟩⟩
    · rcases List.mem_cons.1 hs with rfl | hs
      · exact Nat.le_refl _
      · have := ih.1 s hs; omega
    · have := ih.1 s hs
      simp only
      omega

theorem retitle_late {ss : List Section} {m : Nat} {t : Str} (h : ∀ s ∈ ss, m < s.line) : ss.map (retitleSection m t) = ss := by
  refine (List.map_congr_left fun s hs => ?_).trans (List.map_id _)
  have := h s hs
  unfold retitleSection
  rw [if_neg (by omega)]
  rfl

theorem ends_replace {U : Unicode} {pre post : List Str} {h h' : Str} {level : Nat} {id title : Str}
    (hh' : ReqHeading U h' level id title) (he : Ends U (pre ++ h :: post)) : Ends U (pre ++ h' :: post) := by
  cases pre with
  | nil => exact .inr ⟨h', post, level, id, title, rfl, hh'⟩
  | cons a pre =>
    rcases he with he | ⟨x, t, l, i, ti, e, hx⟩
    · cases he
    · cases e
      exact .inr ⟨_, _, _, _, _, rfl, hx⟩

/-- Lines without headings, and then others: where a heading is. -/
theorem split_heading {U : Unicode} {body rest pre post : List Str} {h : Str} {level : Nat} {id title : Str}
    (hh : ReqHeading U h level id title) (hb : ∀ l ∈ body, NoHeading U l) (e : body ++ rest = pre ++ h :: post) :
    ∃ pre', pre = body ++ pre' ∧ rest = pre' ++ h :: post := by
  induction body generalizing pre with
  | nil => exact ⟨pre, rfl, e⟩
  | cons b body ih =>
    cases pre with
    | nil =>
      cases e
      exact absurd hh (hb _ (by simp) _ _ _)
    | cons a pre =>
      simp only [List.cons_append, List.cons.injEq] at e
      obtain ⟨pre', rfl, h2⟩ := ih (fun l hl => hb l (by simp [hl])) e.2
      exact ⟨pre', by rw [e.1]; rfl, h2⟩

theorem heading_unique {U : Unicode} {h : Str} {level level' : Nat} {id id' title title' : Str}
    (h1 : ReqHeading U h level id title) (h2 : ReqHeading U h level' id' title') : id = id' := by
  obtain ⟨raw, e1, -⟩ := Md.heading_reqParts h1
  obtain ⟨raw', e2, -⟩ := Md.heading_reqParts h2
  rw [e1] at e2
  simp only [Option.some.injEq, Prod.mk.injEq] at e2
  exact e2.2.1

theorem sections_retitle {U : Unicode} {path : Path} {n : Nat} {ls : List Str} {ss : List Section} (hs : Sections U path n ls ss)
    {h h' : Str} {level level' : Nat} {id title t : Str} (hh : ReqHeading U h level id title)
    (hh' : ReqHeading U h' level' id t) : ∀ {pre post : List Str}, ls = pre ++ h :: post →
    Sections U path n (pre ++ h' :: post) (ss.map (retitleSection (n + pre.length) t)) := by
  induction hs with
  | nil n => intro pre post e; exact absurd (congrArg List.length e) (by simp)
  | @cons n g level0 id0 title0 body rest as cut ss h1 h2 h3 h4 h5 ih =>
    intro pre post e
    cases pre with
    | nil =>
      simp only [List.nil_append, List.cons.injEq] at e
      obtain ⟨rfl, rfl⟩ := e
      rw [List.map_cons, retitle_late (fun s hs => ?_), List.nil_append]
      · unfold retitleSection
        rw [if_pos (by simp), heading_unique h1 hh]
        exact .cons hh' h2 h3 h4 h5
      · have := (sections_line h5).1 s hs
        simp only [List.length_nil]
        omega
    | cons a pre =>
      simp only [List.cons_append, List.cons.injEq] at e
      obtain ⟨rfl, e⟩ := e
      obtain ⟨pre', rfl, rfl⟩ := split_heading hh h2 e
      have := ih (pre := pre') (post := post) rfl
      rw [List.map_cons]
      have e2 : n + 1 + body.length + pre'.length = n + (g :: (body ++ pre')).length := by simp; omega
      rw [e2] at this
      have e3 : g :: (body ++ pre') ++ h' :: post = g :: (body ++ (pre' ++ h' :: post)) := by simp
      rw [e3]
      have e4 : retitleSection (n + (g :: (body ++ pre')).length) t ⟨n, id0, title0, as, cut⟩ = ⟨n, id0, title0, as, cut⟩ := by
        unfold retitleSection
        rw [if_neg (by simp)]
      rw [e4]
      exact .cons h1 h2 (ends_replace hh' h3) h4 this

theorem document_retitle {U : Unicode} {path : Path} {pre post : List Str} {ss : List Section} {h h' : Str}
    (hs : Document U path (pre ++ h :: post) ss) {level level' : Nat} {id title t : Str} (hh : ReqHeading U h level id title)
    (hh' : ReqHeading U h' level' id t) :
    Document U path (pre ++ h' :: post) (ss.map (retitleSection (pre.length + 1) t)) := by
  obtain ⟨a, rest, e, h1, h2, h3⟩ := hs
  obtain ⟨pre', rfl, rfl⟩ := split_heading hh h1 e.symm
  refine ⟨a, pre' ++ h' :: post, by simp, h1, ends_replace hh' h2, ?_⟩
  have := sections_retitle h3 hh hh' (pre := pre') rfl
  have e2 : a.length + 1 + pre'.length = (a ++ pre').length + 1 := by simp; omega
  rwa [e2] at this

theorem retitle_errors (path : Path) (m : Nat) (t : Str) (s : Section) :
    (retitleSection m t s).errors path = s.errors path := by
  unfold retitleSection
  split <;> rfl

theorem retitle_kept (failure : Option Str) (m : Nat) (t : Str) (ss : List Section) :
    kept failure (ss.map (retitleSection m t)) = (kept failure ss).map (retitleSection m t) := by
  have hc : ∀ s, (retitleSection m t s).cut = s.cut := by
    intro s; unfold retitleSection; split <;> rfl
  induction ss with
  | nil => rfl
  | cons s ss ih =>
    cases ss with
    | nil =>
      simp only [List.map_cons, List.map_nil, kept, hc]
      split <;> rfl
    | cons s' ss =>
      simp only [List.map_cons, kept] at ih ⊢
      rw [ih]

/-- The requirement with another title, if it is the one at the line. -/
def retitleAt (path : Path) (m : Nat) (t : Str) (r : Requirement) : Requirement :=
  if r.location = lineOf path m then { r with title := some t } else r

theorem retitle_are {path : Path} {m : Nat} {t : Str} {ss : List Section} {rs : List Requirement}
    (h : AreRequirements path ss rs) : AreRequirements path (ss.map (retitleSection m t)) (rs.map (retitleAt path m t)) := by
  induction h with
  | nil => exact .nil
  | @cons s r ss rs h _ ih =>
    refine .cons ?_ ih
    unfold retitleSection retitleAt
    have hl : r.location = lineOf path m ↔ s.line = m := by
      rw [h.location]; unfold lineOf
      constructor
      · intro e; cases e; rfl
      · rintro rfl; rfl
    by_cases e : s.line = m
    · rw [if_pos e, if_pos (hl.2 e)]
      exact ⟨h.id, rfl, h.location, h.covers, h.depends, h.tags, h.attributes⟩
    · rw [if_neg e, if_neg (fun x => e (hl.1 x))]
      exact h

theorem are_lines {path : Path} {ss : List Section} {rs : List Requirement} (h : AreRequirements path ss rs)
    (hp : ss.Pairwise (fun a b => a.line < b.line)) : rs.Pairwise (fun a b => a.location ≠ b.location) := by
  have hin : ∀ {ss : List Section} {rs : List Requirement}, AreRequirements path ss rs → ∀ r ∈ rs, ∃ s ∈ ss, r.location = lineOf path s.line := by
    intro ss rs h
    induction h with
    | nil => simp
    | @cons s r ss rs h _ ih =>
      intro x hx
      rcases List.mem_cons.1 hx with rfl | hx
      · exact ⟨s, by simp, h.location⟩
      · obtain ⟨s', h1, h2⟩ := ih x hx
        exact ⟨s', by simp [h1], h2⟩
  induction h with
  | nil => exact .nil
  | @cons s r ss rs h h2 ih =>
    obtain ⟨p1, p2⟩ := List.pairwise_cons.1 hp
    refine List.pairwise_cons.2 ⟨fun x hx e => ?_, ih p2⟩
    obtain ⟨s', h3, h4⟩ := hin h2 x hx
    have := p1 s' h3
    rw [h.location, h4] at e
    simp only [lineOf, Location.mk.injEq, Option.some.injEq, LocationInFile.line.injEq, true_and] at e
    omega

theorem kept_sublist (failure : Option Str) (ss : List Section) : (kept failure ss).Sublist ss := by
  induction ss with
  | nil => exact .slnil
  | cons s ss ih =>
    cases ss with
    | nil =>
      unfold kept
      split
      · exact List.Sublist.refl _
      · exact List.nil_sublist _
    | cons s' ss => exact ih.cons_cons s

theorem map_one {rs a b : List Requirement} {r : Requirement} {path : Path} {m : Nat} {t : Str}
    (hp : rs.Pairwise (fun a b => a.location ≠ b.location)) (e : rs = a ++ r :: b) (hr : r.location = lineOf path m) :
    rs.map (retitleAt path m t) = a ++ { r with title := some t } :: b := by
  subst e
  obtain ⟨-, h2, h3⟩ := List.pairwise_append.1 hp
  obtain ⟨h4, -⟩ := List.pairwise_cons.1 h2
  have keep : ∀ l : List Requirement, (∀ s ∈ l, s.location ≠ r.location) → l.map (retitleAt path m t) = l := by
    intro l hl
    refine (List.map_congr_left fun s hs => ?_).trans (List.map_id _)
    unfold retitleAt
    rw [if_neg (by rw [← hr]; exact hl s hs)]
    rfl
  rw [List.map_append, List.map_cons, keep a (fun s hs => h3 s hs r (by simp)), keep b (fun s hs => (h4 s hs).symm)]
  unfold retitleAt
  rw [if_pos hr]

theorem pathMeans_unique {env : Env} {w : World} {parser : ArtefactParser} {p : Path} {r1 r2 : List Requirement}
    {e1 e2 : List Error} (h1 : PathMeans env w parser p r1 e1) (h2 : PathMeans env w parser p r2 e2) : r1 = r2 ∧ e1 = e2 := by
  cases h1 with
  | closed a1 =>
    cases h2 with
    | closed a2 => rw [a1] at a2; cases a2; exact ⟨rfl, rfl⟩
    | opened a2 b2 => rw [a1] at a2; cases a2
  | opened a1 b1 =>
    cases h2 with
    | closed a2 => rw [a1] at a2; cases a2
    | opened a2 b2 =>
      rw [a1] at a2
      cases a2
      rw [← C81_file] at b1 b2
      rw [b1] at b2
      cases b2
      exact ⟨rfl, rfl⟩

theorem heading_retitles {env : Env} {w w' : World} {p : Path} {text text' : Str} {pre post : List Str} {h h' : Str}
    {level level' : Nat} {old t : Str} {r : Requirement}
    (h1 : env.os.openFile w p = .ok ⟨Utf8.encode text, none⟩) (h2 : env.os.openFile w' p = .ok ⟨Utf8.encode text', none⟩)
    (h3 : Lines text (pre ++ h :: post)) (h4 : Lines text' (pre ++ h' :: post)) (h5 : ReqHeading env.U h level r.id old)
    (h6 : ReqHeading env.U h' level' r.id t) {reqs0 : List Requirement} {errs0 : List Error}
    (h7 : PathMeans env w .markdown p reqs0 errs0) (h8 : r ∈ reqs0) (h9 : r.location = lineOf p (pre.length + 1)) :
    Replaces env w w' .markdown p r { r with title := some t } := by
  intro reqs errs hp
  have hu := pathMeans_unique h7 hp
  obtain ⟨rfl, rfl⟩ := hu
  cases hp with
  | closed hc => rw [h1] at hc; cases hc
  | opened hc hp =>
    rw [h1] at hc
    cases hc
    cases hp with
    | @markdown text0 failure ls ss _ k1 k2 k3 k4 k5 =>
      rw [readLines_iff, File.lines_encode] at k1
      cases k1
      have hls : ls = pre ++ h :: post := (lines_iff.1 k3).trans (lines_iff.1 h3).symm
      subst hls
      obtain ⟨a, b, e⟩ := List.append_of_mem h8
      refine ⟨a, b, e, ?_⟩
      obtain ⟨d0, rest, d1, d2, d3, d4⟩ := id k4
      have hpw := are_lines k5 ((sections_line d4).2.sublist (kept_sublist ..))
      rw [← map_one hpw e h9 (t := t)]
      have herr : documentErrors p none (ss.map (retitleSection (pre.length + 1) t)) = documentErrors p none ss := by
        unfold documentErrors
        rw [List.flatMap_map]
        simp only [retitle_errors]
      rw [← herr]
      refine .opened h2 (.markdown (.all text') ?_ h4 (document_retitle k4 h5 h6) ?_)
      · intro ho
        obtain ⟨l, hl, ht⟩ := (Md.trips_iff text').2 ho
        rw [← lines_iff.1 h4] at hl
        rcases List.mem_append.1 hl with hl | hl
        · exact k2 ((Md.trips_iff text).1 ⟨l, by rw [← lines_iff.1 h3]; simp [hl], ht⟩)
        · rcases List.mem_cons.1 hl with rfl | hl
          · obtain ⟨c, rfl⟩ := Md.utf8Len_one ht.1
            obtain ⟨i1, -, w0, rest0, nl, e0, -, hne, -⟩ := h6
            have := congrArg List.length e0
            have hr0 : 0 < rest0.length := List.length_pos_iff.2 hne
            simp at this
            omega
          · exact k2 ((Md.trips_iff text).1 ⟨l, by rw [← lines_iff.1 h3]; simp [hl], ht⟩)
      · rw [retitle_kept]
        exact retitle_are k5

theorem firstLine_retitles {env : Env} {w w' : World} {p : Path} {text text' : Str} {ls : List Str} {old t : Str}
    {r : Requirement} (h1 : env.os.openFile w p = .ok ⟨Utf8.encode text, none⟩)
    (h2 : env.os.openFile w' p = .ok ⟨Utf8.encode text', none⟩) (h3 : TextLines text (old :: ls))
    (h4 : TextLines text' (t :: ls)) {errs0 : List Error} (h5 : PathMeans env w .monoRequirement p [r] errs0) :
    Replaces env w w' .monoRequirement p r { r with title := some t } := by
  intro reqs errs hp
  obtain ⟨rfl, rfl⟩ := pathMeans_unique h5 hp
  refine ⟨[], [], rfl, ?_⟩
  rw [List.nil_append]
  have hinj : ∀ {text0 : Str} {ls0 : List Str}, (⟨Utf8.encode text, none⟩ : File) = ⟨Utf8.encode text0, none⟩ →
      TextLines text0 ls0 → ls0 = old :: ls := by
    intro text0 ls0 e ht
    have := File.lines_encode text
    rw [e, File.lines_encode] at this
    cases this
    rw [textLines_iff] at ht h3
    rw [ht, h3]
  cases hp with
  | opened hc hp =>
    rw [h1] at hc
    cases hc
    cases hp with
    | mono k1 k2 k3 k4 k5 =>
      cases hinj k1 k2
      exact .opened h2 (.mono rfl h4 k3 k4 k5)
    | monoNoName k1 k2 k3 k4 =>
      cases hinj k1 k2
      exact .opened h2 (.monoNoName rfl h4 k3 k4)

theorem are_titled {path : Path} {ss : List Section} {rs : List Requirement} (h : AreRequirements path ss rs) :
    ∀ r ∈ rs, r.title ≠ none := by
  induction h with
  | nil => simp
  | cons h _ ih =>
    intro r hr
    rcases List.mem_cons.1 hr with rfl | hr
    · rw [h.title]; simp
    · exact ih r hr

/-- What the edit means for the file. -/
theorem file_retitles {env : Env} {w w' : World} {p : Path} {parser : ArtefactParser} {r : Requirement} {t : Str}
    (h : FileRetitles env w w' p parser r t) :
    Replaces env w w' parser p r { r with title := some t } ∧ r.title ≠ none := by
  cases h with
  | heading h1 h2 h3 h4 h5 h6 h7 h8 h9 =>
    refine ⟨heading_retitles h1 h2 h3 h4 h5 h6 h7 h8 h9, ?_⟩
    cases h7 with
    | closed hc => rw [h1] at hc; cases hc
    | opened hc hp =>
      cases hp with
      | markdown k1 k2 k3 k4 k5 =>
        exact are_titled k5 _ h8
  | @firstLine text _ _ _ _ _ _ h1 h2 h3 h4 h5 =>
    refine ⟨firstLine_retitles h1 h2 h3 h4 h5, ?_⟩
    cases h5 with
    | opened hc hp =>
      rw [h1] at hc
      cases hc
      have hinj : ∀ {text0 : Str} {ls0 : List Str}, (⟨Utf8.encode text, none⟩ : File) = ⟨Utf8.encode text0, none⟩ →
          TextLines text0 ls0 → ls0.head? ≠ none := by
        intro text0 ls0 e ht
        have := File.lines_encode text
        rw [e, File.lines_encode] at this
        cases this
        rw [textLines_iff] at ht h3
        rw [ht, ← h3]
        simp
      cases hp with
      | mono k1 k2 k3 k4 k5 => exact hinj k1 k2
      | monoNoName k1 k2 k3 k4 => exact hinj k1 k2

/-! ## In a project -/

/-- The graph with the other title. -/
theorem replaced_retitled {g g' : Graph} {x : ArtefactId} {r : Requirement} {t : Str} (hg : Keyed g)
    (h : ReplacesRequirement g g' x r { r with title := some t }) (hu : ∀ a s, Defines g a s → s.id = r.id → a = x) :
    g' = other (fun a => { a with requirements := a.requirements.mapValues (retitle r (some t)) }) g := by
  obtain ⟨art, reqs, h1, h2, h3, h4⟩ := h.artefact
  have : g'.artefacts = g.artefacts.mapValues
      (fun a => { a with requirements := a.requirements.mapValues (retitle r (some t)) }) := by
    refine BMap.ext_get fun a => ?_
    rw [BMap.get_mapValues]
    by_cases ha : a = x
    · subst ha
      rw [h2, h1]
      simp only [Option.map_some, Option.some.injEq, Artefact.mk.injEq, true_and, and_true]
      refine BMap.ext_get fun k => ?_
      rw [BMap.get_mapValues, h4]
      by_cases hk : k = r.id
      · rw [if_pos hk, hk, h3]
        simp [retitle]
      · rw [if_neg hk]
        cases hs : art.requirements.get k with
        | none => rfl
        | some s =>
          have := hg.requirement _ _ h1 _ _ hs
          have hne : s ≠ r := fun e => hk (by rw [← this, e])
          simp [retitle, hne]
    · rw [h.others a ha]
      cases hx : g.artefacts.get a with
      | none => rfl
      | some art' =>
        simp only [Option.map_some, Option.some.injEq]
        have : art'.requirements.mapValues (retitle r (some t)) = art'.requirements := by
          refine BMap.ext_get fun k => ?_
          rw [BMap.get_mapValues]
          cases hs : art'.requirements.get k with
          | none => rfl
          | some s =>
            have hid := hg.requirement _ _ hx _ _ hs
            have hne : s ≠ r := by
              rintro rfl
              exact ha (hu a s ⟨art', hx, hid ▸ hs⟩ rfl)
            simp [retitle, hne]
        rw [this]
  obtain ⟨m, rels⟩ := g'
  obtain ⟨m0, rels0⟩ := g
  have hr : rels = rels0 := h.relations
  simp only [other, Graph.mk.injEq]
  exact ⟨this, hr⟩

theorem repaints_retitle (r : Requirement) (t : Option Str) : RepaintsArtefact (retitle r t)
    (fun a => { a with requirements := a.requirements.mapValues (retitle r t) }) :=
  ⟨fun _ => rfl, fun _ => rfl, fun _ => rfl, fun _ => rfl⟩

/-- **C140** in a project: after a change of a title in a heading, or in the first line of a file with one requirement, the
project is read and traced as before: the artefacts are the same but for that title, the coverages, the uncovered and the
derived requirements are the same, and of the errors only those differ that say that a title is wrong. -/
theorem C140_project {env : Env} {w w' : World} {base : Path} {config : Config} {x : ArtefactId} {r : Requirement} {t : Str}
    (hm : ProjectRetitles env w w' base config x r t) {c : Controller} (h : Controller.new env w config base = .ok c)
    (hd : ∀ art, c.graph.artefacts.get x = some art → ∀ first again, Error.duplicateRequirement first again ∈ art.errors →
      first.id ≠ r.id) (hu : ∀ a s, Defines c.graph a s → s.id = r.id → a = x) :
    ∃ c', Controller.new env w' config base = .ok c' ∧
      (∀ a art, c.graph.artefacts.get a = some art → c'.graph.artefacts.get a =
        some { art with requirements := art.requirements.mapValues (retitle r (some t)) }) ∧
      c'.tracedGraph.tracedRelations = c.tracedGraph.tracedRelations ∧ c'.tracedGraph.derived = c.tracedGraph.derived ∧
      (∀ e, e ∈ c'.tracedGraph.errors ↔
        (∃ e0 ∈ c.tracedGraph.errors, ¬ IsWrongTitle e0 ∧ e = repaintError (fun l => l) (retitle r (some t)) e0) ∨
        WrongNow c.graph (retitle r (some t)) e) ∧
      c'.jobs = c.jobs := by
  obtain ⟨before, ac, aft, pre, p, post, e1, rfl, e3, e4, e5, e6, e7⟩ := hm.artefact
  obtain ⟨hk, hr⟩ := C18_consistent h
  obtain ⟨f1, f2⟩ := file_retitles e5
  obtain ⟨c', h', hrep, hj⟩ := project_replace hm.matching e1 e3 (old := r) (new := { r with title := some t }) rfl
    (fun _ => ⟨f2, by simp⟩) e4 f1 e6 e7 h hd
  have hg := replaced_retitled hk hrep hu
  obtain ⟨tg', t1, t2, t3, t4⟩ := C140_titles (retitle_retitles r (some t)) (repaints_retitle r (some t)) hk (C18_no_panic h).1
  have t5 := (C18_no_panic h').1
  rw [hg, t1] at t5
  cases t5
  refine ⟨c', h', fun a art ha => ?_, t2, t3, t4, hj⟩
  rw [hg, get, ha]
  rfl

/-- **C140** A green project stays green with the new title exactly if no reference says another one. -/
theorem C140_green {env : Env} {w w' : World} {base : Path} {config : Config} {x : ArtefactId} {r : Requirement} {t : Str}
    (hm : ProjectRetitles env w w' base config x r t) {c : Controller} (h : Controller.new env w config base = .ok c)
    (hno : ¬ TraceProblem c.tracedGraph) :
    ∃ c', Controller.new env w' config base = .ok c' ∧
      (TraceProblem c'.tracedGraph ↔ SaysOtherTitle c.graph r (some t)) := by
  obtain ⟨hk, hr⟩ := C18_consistent h
  have ht := (C18_no_panic h).1
  have harts : c.tracedGraph.artefacts = c.graph.artefacts := (C11_frame hk ht).1
  have hpp : ¬ ParseProblem c.graph.artefacts := fun hp => hno (.inr (.inl (harts ▸ hp)))
  have hne : c.tracedGraph.errors = [] := List.eq_nil_iff_forall_not_mem.2 fun e he => hno (.inl ⟨e, he⟩)
  obtain ⟨before, ac, aft, pre, p, post, e1, rfl, e3, e4, e5, e6, e7⟩ := hm.artefact
  obtain ⟨f1, f2⟩ := file_retitles e5
  obtain ⟨c', h', hrep, -⟩ := project_replace hm.matching e1 e3 (old := r) (new := { r with title := some t }) rfl
    (fun _ => ⟨f2, by simp⟩) e4 f1 e6 e7 h (fun art ha f s hf => absurd ⟨_, art, _, ha, hf⟩ hpp)
  have hdef : Defines c.graph ac.id r := by
    obtain ⟨art, reqs, h1, -, h3, -⟩ := hrep.artefact
    exact ⟨art, h1, h3⟩
  have hg := replaced_retitled hk hrep (fun a s hs hid =>
    (((problem_iff h).1 hno).2.1.unique a ac.id s r hs hdef hid))
  obtain ⟨tg', t1, t2⟩ := C140_one (repaints_retitle r (some t)) hk ht hne
  obtain ⟨tg2, t3, t4, t5, -⟩ := C140_titles (retitle_retitles r (some t)) (repaints_retitle r (some t)) hk ht
  have t6 := (C18_no_panic h').1
  rw [hg, t1] at t6
  cases t6
  rw [t1] at t3
  cases t3
  refine ⟨c', h', ?_⟩
  have harts' : c'.tracedGraph.artefacts = c'.graph.artefacts := (C11_frame (C18_consistent h').1 (C18_no_panic h').1).1
  constructor
  · rintro (⟨e, he⟩ | ⟨a, art, e, ha, he⟩ | hx | hx)
    · refine Classical.byContradiction fun hn => ?_
      rw [t2.2 hn] at he
      cases he
    · rw [harts', hg, get, Option.map_eq_some_iff] at ha
      obtain ⟨art0, ha, rfl⟩ := ha
      exact absurd ⟨a, art0, e, ha, he⟩ hpp
    · rw [t4] at hx
      exact absurd (.inr (.inr (.inl hx))) hno
    · rw [t5] at hx
      exact absurd (.inr (.inr (.inr hx))) hno
  · intro hs
    refine .inl (Classical.byContradiction fun hn => t2.1 ?_ hs)
    exact List.eq_nil_iff_forall_not_mem.2 fun e he => hn ⟨e, he⟩

namespace TitlesExample

open CtrlExample

def requirements : ArtefactConfig := ⟨c!"REQ", [c!"req.md"], .markdown, some true, none⟩
def design : ArtefactConfig := ⟨c!"DES", [c!"des.md"], .markdown, none, none⟩
def config : Config := ⟨none, [requirements, design], [⟨c!"REQ", [c!"DES"]⟩], none, none⟩
def e : Env := env .nil config

def before : Str := c!"Intro\n# REQ_A: title a\nComment: x\n# REQ_B: title b\n"
def after : Str := c!"Intro\n# REQ_A: other\nComment: x\n# REQ_B: title b\n"

/-- The design names one requirement with its title. -/
def des : Str := c!"# DES_A: d\nCovers:\n* REQ_A: title a\n* REQ_B: title b\n"

def first : World := world [(c!"p/req.md", before), (c!"p/des.md", des)]
def second : World := world [(c!"p/req.md", after), (c!"p/des.md", des)]

def req : Requirement := ⟨c!"REQ_A", some c!"title a", ⟨c!"p/req.md", some (.line 2)⟩, [], [], [], .ofList [(c!"Comment", c!"x")]⟩

theorem file : FileRetitles e first second c!"p/req.md" .markdown req c!"other" := by
  refine .heading (text := before) (text' := after) (pre := [c!"Intro\n"]) (h := c!"# REQ_A: title a\n")
    (h' := c!"# REQ_A: other\n") (post := [c!"Comment: x\n", c!"# REQ_B: title b\n"]) (level := 1) (level' := 1) (old := c!"title a")
    (reqs := [req, ⟨c!"REQ_B", some c!"title b", ⟨c!"p/req.md", some (.line 4)⟩, [], [], [], .empty⟩]) (errs := [])
    (by decide +kernel) (by decide +kernel) (lines_iff.2 (by decide +kernel)) (lines_iff.2 (by decide +kernel)) ?_ ?_ ?_ (by simp) rfl
  · exact DocExample.head (id := c!"REQ_A") (raw := c!"title a") (SectionsExample.line (by decide)) (by decide +kernel)
  · exact DocExample.head (id := c!"REQ_A") (raw := c!"other") (SectionsExample.line (by decide)) (by decide +kernel)
  · exact .opened (file := ⟨Utf8.encode before, none⟩) (by decide +kernel) ((C81_file ..).1 (by decide +kernel))

theorem project : ProjectRetitles e first second c!"p" config c!"REQ" req c!"other" := by
  refine ⟨fun p => rfl, [], requirements, [design], [], c!"p/req.md", [], rfl, rfl, ?_, ?_, file, ?_, ?_⟩
  · simp only [List.mem_singleton, forall_eq]; decide
  · exact .inr ⟨by decide, c!"req.md", rfl, by decide⟩
  · simp
  · simp only [List.nil_append, List.mem_singleton, forall_eq]
    rintro fs (⟨h, -⟩ | ⟨-, p, h, rfl⟩) q hq
    · cases h
    · cases h
      rw [List.mem_singleton.1 hq]
      unfold SameFile
      decide +kernel

/-- Is there no error of tracing, and how many with the new title? -/
example : (Controller.new e first config c!"p").toOption.map (fun c => c.tracedGraph.errors.length) = some 0 ∧
    (Controller.new e second config c!"p").toOption.map (fun c => c.tracedGraph.errors) =
      some [.coveredWithWrongTitle { req with title := some c!"other" }
        ⟨c!"DES_A", some c!"d", ⟨c!"p/des.md", some (.line 1)⟩, [⟨c!"REQ_A", some c!"title a", ⟨c!"p/des.md", some (.line 3)⟩⟩,
          ⟨c!"REQ_B", some c!"title b", ⟨c!"p/des.md", some (.line 4)⟩⟩], [], [], .empty⟩
        c!"title a" ⟨c!"p/des.md", some (.line 3)⟩] := by
  constructor <;> decide +kernel

/-- Tracing finds no fault with the first state. -/
def green (w : World) : Option Bool :=
  (Controller.new e w config c!"p").toOption.map fun c => c.tracedGraph.errors.isEmpty &&
    c.graph.artefacts.values.all (·.errors.isEmpty) && c.tracedGraph.tracedRelations.all (·.uncovered.isEmpty) &&
    c.tracedGraph.derived.values.all (·.isEmpty)

theorem not_problem {w : World} (key : green w = some true) {c : Controller} (h : Controller.new e w config c!"p" = .ok c) :
    ¬ TraceProblem c.tracedGraph := by
  rw [green, h] at key
  simp only [Except.toOption, Option.map_some, Option.some.injEq, Bool.and_eq_true, List.all_eq_true, List.isEmpty_iff] at key
  obtain ⟨⟨⟨k1, k2⟩, k3⟩, k4⟩ := key
  rw [← (C11_frame (C18_consistent h).1 (C18_no_panic h).1).1] at k2
  rintro (⟨x, hx⟩ | ⟨a, art, x, ha, hx⟩ | ⟨tr, htr, r, hr⟩ | ⟨a, ids, r, ha, hr⟩)
  · rw [k1] at hx; cases hx
  · rw [k2 art ((BMap.mem_values_iff ..).2 ⟨a, ha⟩)] at hx; cases hx
  · rw [k3 tr htr] at hr; cases hr
  · rw [k4 ids ((BMap.mem_values_iff ..).2 ⟨a, ha⟩)] at hr; cases hr

/-- The hypotheses of `C140_green` hold. -/
example : ∃ c c', Controller.new e first config c!"p" = .ok c ∧ Controller.new e second config c!"p" = .ok c' ∧
    (TraceProblem c'.tracedGraph ↔ SaysOtherTitle c.graph req (some c!"other")) := by
  have key : green first = some true := by decide +kernel
  cases h : Controller.new e first config c!"p" with
  | error x => rw [green, h] at key; cases key
  | ok c =>
    obtain ⟨c', h1, h2⟩ := C140_green project h (not_problem key h)
    exact ⟨c, c', rfl, h1, h2⟩

/-- The hypotheses of `C140_titles` and `C140_one` hold for the graph of this project. -/
example : (Controller.new e first config c!"p").toOption.map (fun c => (trace c.graph).toOption.map (·.errors)) =
    some (some []) := by decide +kernel

/-- The first line of a file with one requirement. -/
example : FileRetitles e (world [(c!"p/Issue1.txt", c!"title\nmore\n")]) (world [(c!"p/Issue1.txt", c!"new\nmore\n")])
    c!"p/Issue1.txt" .monoRequirement ⟨c!"Issue1", some c!"title", ⟨c!"p/Issue1.txt", none⟩, [], [], [], .empty⟩ c!"new" := by
  refine .firstLine (text := c!"title\nmore\n") (text' := c!"new\nmore\n") (ls := [c!"more"]) (old := c!"title") (errs := [])
    (by decide +kernel) (by decide +kernel) (textLines_iff.2 (by decide +kernel)) (textLines_iff.2 (by decide +kernel)) ?_
  exact .opened (file := ⟨Utf8.encode c!"title\nmore\n", none⟩) (by decide +kernel) ((C81_file ..).1 (by decide +kernel))

end TitlesExample

end Reqtrace
